import Verif.Model.Target
/-
Model of the conditional compilation of the crate: the `cfg_if!` ladders of src/lib.rs:44-121 and
src/lib.rs:333-347, the crate-level feature gates of src/lib.rs:3-29, and what each module needs from the rest of
the crate and from the compiler.
-/
namespace Aes.Config
open Aes Rust

/-- `target_arch`; `other` stands for every architecture the crate does not mention. -/
inductive Arch where
  | x86 | x86_64 | aarch64 | arm64ec | arm | riscv64 | riscv32 | other
deriving DecidableEq, Repr

/-- The `target_feature`s the crate's cfgs or intrinsics mention. -/
inductive Feature where
  | sse2 | ssse3 | sse41 | aes | avx | avx2 | avx512f | vaes | v8 | neon | zkne | zknd
deriving DecidableEq, Repr

/-- A compilation configuration: everything the `cfg`s of the crate look at. -/
structure Cfg where
  arch : Arch
  endian : Endian
  /-- `cfg(target_feature = ..)` -/
  has : Feature → Bool
  /-- cargo feature `nightly` (Cargo.toml:13) -/
  nightly : Bool
  /-- cargo feature `constant-time` (Cargo.toml:15) -/
  constantTime : Bool

/-- `any(target_arch = "x86", target_arch = "x86_64")`. -/
def Cfg.isX86 (c : Cfg) : Bool := c.arch == .x86 || c.arch == .x86_64

/-- What rustc guarantees about the cfgs it sets (trusted, not code of the crate): x86, RISC-V and Arm64EC are
little-endian; enabling a target feature enables the ones it implies
(rustc_target/src/target_features.rs: sse4.1 ⇒ ssse3 ⇒ sse3 ⇒ sse2, aes ⇒ sse2 on x86, avx ⇒ sse4.2 ⇒ sse4.1, avx2 ⇒ avx, avx512f ⇒ avx2,
vaes ⇒ avx2 and aes; aes ⇒ neon on the Arm family). -/
structure Cfg.Valid (c : Cfg) : Prop where
  littleOnly : c.arch = .x86 ∨ c.arch = .x86_64 ∨ c.arch = .arm64ec ∨ c.arch = .riscv64 ∨ c.arch = .riscv32 →
    c.endian = .little
  ssse3 : c.has .ssse3 = true → c.has .sse2 = true
  sse41 : c.has .sse41 = true → c.has .ssse3 = true
  avx : c.has .avx = true → c.has .sse41 = true
  avx2 : c.has .avx2 = true → c.has .avx = true
  avx512f : c.has .avx512f = true → c.has .avx2 = true
  vaes : c.has .vaes = true → c.has .avx2 = true ∧ c.has .aes = true
  aes : c.has .aes = true → (c.arch = .aarch64 ∨ c.arch = .arm64ec ∨ c.arch = .arm) → c.has .neon = true

/-- The modules that can define `AesBlock`. -/
inductive BlockMod where
  | aes_x86 | aes_arm | aes_riscv64 | aes_riscv32 | aes_bitslice | aes_table_based
deriving DecidableEq, Repr
/-- The modules that can define `AesBlockX2`. -/
inductive X2Mod where
  | aesni_x2 | aesdefault_x2
deriving DecidableEq, Repr
/-- The modules that can define `AesBlockX4`. -/
inductive X4Mod where
  | aesni_x4 | aesdefault_x4
deriving DecidableEq, Repr

/-- src/lib.rs:54-58 and 336-340: `any(target_arch = "aarch64", target_arch = "arm64ec",
all(feature = "nightly", target_arch = "arm", target_feature = "v8"))`. -/
def Cfg.armFamily (c : Cfg) : Bool :=
  c.arch == .aarch64 || c.arch == .arm64ec || (c.nightly && c.arch == .arm && c.has .v8)

/-- src/lib.rs:44-92: the module that defines `AesBlock`. -/
def blockMod (c : Cfg) : BlockMod :=
  if c.isX86 && c.has .sse41 && c.has .aes then .aes_x86
  else if c.armFamily && c.has .aes && c.endian == .little then .aes_arm
  else if c.nightly && c.arch == .riscv64 && c.has .zkne && c.has .zknd then .aes_riscv64
  else if c.nightly && c.arch == .riscv32 && c.has .zkne && c.has .zknd then .aes_riscv32
  else if c.constantTime then .aes_bitslice
  else .aes_table_based

/-- src/lib.rs:94-106: the module that defines `AesBlockX2`. -/
def x2Mod (c : Cfg) : X2Mod :=
  if c.nightly && c.isX86 && c.has .vaes then .aesni_x2 else .aesdefault_x2

/-- src/lib.rs:108-121: the module that defines `AesBlockX4`. -/
def x4Mod (c : Cfg) : X4Mod :=
  if c.nightly && c.isX86 && c.has .avx512f && c.has .vaes then .aesni_x4 else .aesdefault_x4

/-- src/lib.rs:334-347: the cfg that selects the `pre_enc`/`pre_dec` versions of `chain_enc` and `chain_dec`. -/
def chainPre (c : Cfg) : Bool :=
  (c.armFamily && c.has .aes) || (c.nightly && c.arch == .riscv32 && c.has .zkne && c.has .zknd)

/-- Whether the module defines `AesBlock::pre_enc` and `AesBlock::pre_dec` (src/aes_arm.rs:107-110,123-126,
src/aes_riscv32.rs:125-128,147-150; no other module does). -/
def BlockMod.hasPre : BlockMod → Bool
  | .aes_arm | .aes_riscv32 => true
  | .aes_x86 | .aes_riscv64 | .aes_bitslice | .aes_table_based => false

/-- Whether the names the selected modules refer to exist: `impl_pre_encdec!` and the chains call `pre_enc` and
`pre_dec` of `AesBlock` (src/lib.rs:352-363,375-389), `aesni_x2` imports `crate::aes_x86::AesBlock`
(src/aesni_x2.rs:7), `aesni_x4` imports `crate::aes_x86::AesBlock` and `crate::aesni_x2::AesBlockX2`
(src/aesni_x4.rs:7-8). The default wide modules use only names that lib.rs always has
(src/aesdefault_x2.rs:3, src/aesdefault_x4.rs:3). -/
def resolves (c : Cfg) : Bool :=
  (!chainPre c || (blockMod c).hasPre) &&
  (x2Mod c != .aesni_x2 || blockMod c == .aes_x86) &&
  (x4Mod c != .aesni_x4 || (blockMod c == .aes_x86 && x2Mod c == .aesni_x2))

/-- The model's target for a configuration in which the names resolve. -/
def target (c : Cfg) : Option Target :=
  if resolves c then
    some (match blockMod c, x2Mod c, x4Mod c with
      | .aes_x86, .aesdefault_x2, _ => .x86
      | .aes_x86, .aesni_x2, .aesdefault_x4 => .x86Vaes
      | .aes_x86, .aesni_x2, .aesni_x4 => .x86Vaes512
      | .aes_arm, _, _ => .arm (c.arch == .arm)      -- src/aes_arm.rs:1-4, 86-99
      | .aes_riscv64, _, _ => .riscv64
      | .aes_riscv32, _, _ => .riscv32
      | .aes_bitslice, _, _ => .bitslice c.endian     -- src/aes_bitslice.rs:199 and the *_ne_bytes calls
      | .aes_table_based, _, _ => .table)
  else none

/-- The target features whose instructions the module uses unconditionally: the intrinsics called in src/aes_x86.rs
(`_mm_aes*`: aes, `_mm_testz_si128`: sse4.1, `_mm_alignr_epi8`: ssse3, the rest sse2), src/aes_arm.rs (`vaes*`: aes,
the rest neon), src/aes_riscv64.rs:4-19 and src/aes_riscv32.rs:9-18 (zkne, zknd). -/
def BlockMod.needs : BlockMod → List Feature
  | .aes_x86 => [.sse2, .ssse3, .sse41, .aes]
  | .aes_arm => [.neon, .aes]
  | .aes_riscv64 | .aes_riscv32 => [.zkne, .zknd]
  | .aes_bitslice | .aes_table_based => []
/-- As above, for src/aesni_x2.rs: `_mm256_aes*`: vaes, loads, stores, `testz`, `set*`: avx, the rest avx2. -/
def X2Mod.needs : X2Mod → List Feature
  | .aesni_x2 => [.avx, .avx2, .vaes]
  | .aesdefault_x2 => []
/-- As above, for src/aesni_x4.rs: `_mm512_aes*`: vaes and avx512f, `_mm256_castsi128_si256`: avx,
`_mm256_inserti128_si256`: avx2, the rest avx512f. -/
def X4Mod.needs : X4Mod → List Feature
  | .aesni_x4 => [.avx, .avx2, .avx512f, .vaes]
  | .aesdefault_x4 => []

/-- The unstable language or library features the crate can switch on. -/
inductive Gate where
  | stdarch_x86_avx512 | stdarch_arm_neon_intrinsics | link_llvm_intrinsics | abi_unadjusted
deriving DecidableEq, Repr

/-- src/lib.rs:3-29: the gates that are switched on. -/
def gates (c : Cfg) : List Gate :=
  (if c.nightly && c.isX86 && c.has .vaes then [.stdarch_x86_avx512] else []) ++
  (if c.nightly && c.arch == .arm && c.has .v8 && c.has .aes && c.endian == .little then
    [.stdarch_arm_neon_intrinsics] else []) ++
  (if c.nightly && (c.arch == .riscv32 || c.arch == .riscv64) && c.has .zkne && c.has .zknd then
    [.link_llvm_intrinsics, .abi_unadjusted] else [])

/-- The gates the selected modules rely on (at the time of the pinned commit): VAES/AVX-512 intrinsics, the 32-bit Arm
NEON intrinsics, `extern "unadjusted"` and `#[link_name = "llvm..."]` (src/aes_riscv64.rs:4-19,
src/aes_riscv32.rs:9-18). -/
def neededGates (c : Cfg) : List Gate :=
  (match blockMod c with
    | .aes_arm => if c.arch == .arm then [.stdarch_arm_neon_intrinsics] else []
    | .aes_riscv64 | .aes_riscv32 => [.link_llvm_intrinsics, .abi_unadjusted]
    | .aes_x86 | .aes_bitslice | .aes_table_based => []) ++
  (match x2Mod c with | .aesni_x2 => [.stdarch_x86_avx512] | .aesdefault_x2 => []) ++
  (match x4Mod c with | .aesni_x4 => [.stdarch_x86_avx512] | .aesdefault_x4 => [])

end Aes.Config
