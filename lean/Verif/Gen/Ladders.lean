import Verif.Model.Config
/-
The conditional compilation of src/lib.rs.
Generated by tools/rust2lean.py; do not edit.
-/
namespace RustSrc.Ladders
open Rust
open Aes.Config

/-- src/lib.rs:44-92: the module that defines `AesBlock`. -/
def AesBlock (c : Cfg) : BlockMod :=
  if (c.arch == .x86 || c.arch == .x86_64) && c.has .sse41 && c.has .aes then .aes_x86 else
  if (c.arch == .aarch64 || c.arch == .arm64ec || (c.nightly && c.arch == .arm && c.has .v8)) && c.has .aes && c.endian == .little then .aes_arm else
  if c.nightly && c.arch == .riscv64 && c.has .zkne && c.has .zknd then .aes_riscv64 else
  if c.nightly && c.arch == .riscv32 && c.has .zkne && c.has .zknd then .aes_riscv32 else
  if c.constantTime then .aes_bitslice else
  .aes_table_based

/-- src/lib.rs:94-106: the module that defines `AesBlockX2`. -/
def AesBlockX2 (c : Cfg) : X2Mod :=
  if c.nightly && (c.arch == .x86 || c.arch == .x86_64) && c.has .vaes then .aesni_x2 else
  .aesdefault_x2

/-- src/lib.rs:108-121: the module that defines `AesBlockX4`. -/
def AesBlockX4 (c : Cfg) : X4Mod :=
  if c.nightly && (c.arch == .x86 || c.arch == .x86_64) && c.has .avx512f && c.has .vaes then .aesni_x4 else
  .aesdefault_x4

/-- src/lib.rs:333-424: which branch is compiled (branch 0 is translated in Verif/Gen/LibPre.lean, branch 1 in LibStd.lean). -/
def chain (c : Cfg) : Nat :=
  if ((c.arch == .aarch64 || c.arch == .arm64ec || (c.nightly && c.arch == .arm && c.has .v8)) && c.has .aes) || (c.nightly && c.arch == .riscv32 && c.has .zkne && c.has .zknd) then 0 else
  1

/-- src/lib.rs:3-29: the unstable features that are switched on. -/
def gates (c : Cfg) : List Gate :=
  (if (c.nightly && (c.arch == .x86 || c.arch == .x86_64) && c.has .vaes) then [.stdarch_x86_avx512] else []) ++
  (if (c.nightly && c.arch == .arm && c.has .v8 && c.has .aes && c.endian == .little) then [.stdarch_arm_neon_intrinsics] else []) ++
  (if (c.nightly && (c.arch == .riscv32 || c.arch == .riscv64) && c.has .zkne && c.has .zknd) then [.link_llvm_intrinsics, .abi_unadjusted] else [])

end RustSrc.Ladders
