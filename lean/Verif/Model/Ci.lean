import Verif.Model.Config
/-
Model of the continuous integration of the repository: .github/workflows/rust.yml (the jobs), .github/workflows/runtest.yml
and ci/run-docker.sh (what a test job runs). A job is the configuration it compiles the crate in. Not modelled: the style
job (rust.yml:10-18), the containers of ci/docker, the lints of clippy.
-/
namespace Aes.Ci
open Aes Rust Config

/-- The toolchains jobs run on. -/
inductive Channel where
  | stable | beta | nightly
deriving DecidableEq, Repr

/-- The `target`s of .github/workflows/rust.yml. -/
inductive Triple where
  | x86_64_unknown_linux_gnu | aarch64_unknown_linux_gnu | armv7_unknown_linux_gnueabihf
  | riscv64gc_unknown_linux_gnu | riscv32i_unknown_none_elf
deriving DecidableEq, Repr

/-- `target_arch` of a triple (trusted: rustc's target specifications; all five are little-endian). -/
def Triple.arch : Triple → Arch
  | .x86_64_unknown_linux_gnu => .x86_64
  | .aarch64_unknown_linux_gnu => .aarch64
  | .armv7_unknown_linux_gnueabihf => .arm
  | .riscv64gc_unknown_linux_gnu => .riscv64
  | .riscv32i_unknown_none_elf => .riscv32

/-- The features, among those the crate looks at, that a triple has by default (trusted: rustc's target specifications). -/
def Triple.base : Triple → List Feature
  | .x86_64_unknown_linux_gnu => [.sse2]
  | .aarch64_unknown_linux_gnu => [.neon]
  | .armv7_unknown_linux_gnueabihf | .riscv64gc_unknown_linux_gnu | .riscv32i_unknown_none_elf => []

/-- The features that `-C target-feature=+f` switches on (trusted: rustc_target/src/target_features.rs, see `Cfg.Valid`). -/
def enabledBy (arch : Arch) : Feature → List Feature
  | .sse41 => [.sse2, .ssse3, .sse41]
  | .aes => match arch with
    | .x86 | .x86_64 => [.aes, .sse2]
    | .aarch64 | .arm64ec | .arm => [.aes, .neon]
    | .riscv64 | .riscv32 | .other => [.aes]
  | .avx512f => [.avx512f, .avx2, .avx, .sse41, .ssse3, .sse2]
  | .vaes => match arch with
    | .x86 | .x86_64 => [.vaes, .aes, .avx2, .avx, .sse41, .ssse3, .sse2]
    | .aarch64 | .arm64ec | .arm | .riscv64 | .riscv32 | .other => []   -- no such feature there
  | .avx2 => [.avx2, .avx, .sse41, .ssse3, .sse2]
  | .avx => [.avx, .sse41, .ssse3, .sse2]
  | .ssse3 => [.ssse3, .sse2]
  | .sse2 => [.sse2]
  | .v8 => [.v8]
  | .neon => [.neon]
  | .zkne => [.zkne]
  | .zknd => [.zknd]

/-- A job: its toolchains, its target, its `target-features` and its `extra-features`. -/
structure Job where
  name : String
  channels : List Channel
  target : Triple
  targetFeatures : List Feature
  nightly : Bool := false
  constantTime : Bool := false

/-- The configuration a job compiles: .github/workflows/runtest.yml:37 and ci/run-docker.sh:31 (`RUSTFLAGS`, `cargo test --target`),
.github/workflows/rust.yml:70,82 (`CARGO_TARGET_*_RUSTFLAGS`, `cargo clippy --target`). -/
def Job.cfg (j : Job) : Cfg where
  arch := j.target.arch
  endian := .little
  has f := (j.target.base ++ j.targetFeatures.flatMap (enabledBy j.target.arch)).contains f
  nightly := j.nightly
  constantTime := j.constantTime

/-- .github/workflows/rust.yml:84-169, the jobs that run the test suite. -/
def testJobs : List Job := [
  -- .github/workflows/rust.yml:84-94
  { name := "Test of AESNI", channels := [.stable, .beta, .nightly], target := .x86_64_unknown_linux_gnu,
    targetFeatures := [.sse41, .aes] },
  -- .github/workflows/rust.yml:96-104
  { name := "Test of AESNI with VAES", channels := [.nightly], target := .x86_64_unknown_linux_gnu,
    targetFeatures := [.vaes], nightly := true },
  -- .github/workflows/rust.yml:106-114
  { name := "Test of AESNI with VAES and AVX512F", channels := [.nightly], target := .x86_64_unknown_linux_gnu,
    targetFeatures := [.vaes, .avx512f], nightly := true },
  -- .github/workflows/rust.yml:116-126
  { name := "Test of Neon on AArch64", channels := [.stable, .beta, .nightly], target := .aarch64_unknown_linux_gnu,
    targetFeatures := [.aes] },
  -- .github/workflows/rust.yml:128-136
  { name := "Test of Neon on ARMv8", channels := [.nightly], target := .armv7_unknown_linux_gnueabihf,
    targetFeatures := [.v8, .aes], nightly := true },
  -- .github/workflows/rust.yml:138-146
  { name := "Test of RiscV-64", channels := [.nightly], target := .riscv64gc_unknown_linux_gnu,
    targetFeatures := [.zkne, .zknd], nightly := true },
  -- .github/workflows/rust.yml:148-157
  { name := "Test of Software Implementation", channels := [.stable, .beta, .nightly], target := .x86_64_unknown_linux_gnu,
    targetFeatures := [] },
  -- .github/workflows/rust.yml:159-169
  { name := "Test of Constant-time Implementation", channels := [.stable, .beta, .nightly], target := .x86_64_unknown_linux_gnu,
    targetFeatures := [], constantTime := true }]

/-- .github/workflows/rust.yml:50-53, clippy's matrix entry `RV64`. -/
def clippyRv64 : Job :=
  { name := "RV64", channels := [.nightly], target := .riscv64gc_unknown_linux_gnu, targetFeatures := [.zkne, .zknd] }
/-- .github/workflows/rust.yml:54-57, clippy's matrix entry `RV32`. -/
def clippyRv32 : Job :=
  { name := "RV32", channels := [.nightly], target := .riscv32i_unknown_none_elf, targetFeatures := [.zkne, .zknd] }

/-- .github/workflows/rust.yml:20-82, the jobs that compile the crate under clippy. -/
def clippyJobs : List Job := [
  -- .github/workflows/rust.yml:27-30
  { name := "AES-NI", channels := [.nightly], target := .x86_64_unknown_linux_gnu, targetFeatures := [.sse41, .aes] },
  -- .github/workflows/rust.yml:31-35
  { name := "AES-NI with VAES", channels := [.nightly], target := .x86_64_unknown_linux_gnu, targetFeatures := [.vaes], nightly := true },
  -- .github/workflows/rust.yml:36-40
  { name := "AES-NI with VAES and AVX-512", channels := [.nightly], target := .x86_64_unknown_linux_gnu,
    targetFeatures := [.vaes, .avx512f], nightly := true },
  -- .github/workflows/rust.yml:41-44
  { name := "Neon", channels := [.nightly], target := .aarch64_unknown_linux_gnu, targetFeatures := [.aes] },
  -- .github/workflows/rust.yml:45-49
  { name := "ARMv8", channels := [.nightly], target := .armv7_unknown_linux_gnueabihf, targetFeatures := [.v8, .aes], nightly := true },
  clippyRv64, clippyRv32,
  -- .github/workflows/rust.yml:58-61
  { name := "Software", channels := [.nightly], target := .x86_64_unknown_linux_gnu, targetFeatures := [] },
  -- .github/workflows/rust.yml:62-66
  { name := "Constant-Time", channels := [.nightly], target := .x86_64_unknown_linux_gnu, targetFeatures := [], constantTime := true }]

end Aes.Ci
