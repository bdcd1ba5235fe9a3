import Verif.Model.Config
/-
Specification for C63: which CPUs know which instruction. The instruction-set manuals say which extension an instruction belongs to
(Intel SDM vol. 2, "CPUID Feature Flag" of each instruction; Arm ARM, FEAT_AES and Advanced SIMD; RISC-V scalar cryptography, Zkne
and Zknd); a CPU that does not implement the extension raises an invalid-opcode exception.
-/
namespace AesSpec
open Aes
open Aes.Config (Feature)

/-- A CPU, as far as the crate can tell: the extensions it implements. -/
abbrev Cpu := Feature → Bool

/-- The extensions that an instruction belongs to: the CPU must implement all of one of the sets. Names that are no instruction of
these manuals have no such set. -/
def extensions : String → List (List Feature)
  -- Intel: 128-bit registers
  | "pand" | "por" | "pxor" | "pslldq" | "pshufd" | "punpcklqdq" => [[.sse2]]
  | "palignr" => [[.ssse3]]
  | "ptest" => [[.sse41]]
  | "aesenc" | "aesenclast" | "aesdec" | "aesdeclast" | "aeskeygenassist" => [[.aes]]
  -- Intel and Arm have an instruction of this name, and name the extension alike
  | "aesimc" => [[.aes]]
  -- Intel: 256-bit registers
  | "vptest ymm" => [[.avx]]
  | "vpand ymm" | "vpor ymm" | "vpxor ymm" => [[.avx2]]
  | "vaesenc ymm" | "vaesenclast ymm" | "vaesdec ymm" | "vaesdeclast ymm" => [[.vaes]]
  -- Intel: 512-bit registers
  | "vpandq zmm" | "vporq zmm" | "vpxorq zmm" | "vptestmq zmm" | "vpcmpeqq zmm" => [[.avx512f]]
  | "vaesenc zmm" | "vaesenclast zmm" | "vaesdec zmm" | "vaesdeclast zmm" => [[.vaes, .avx512f]]
  -- Arm
  | "and" | "orr" | "eor" | "mvn" | "dup" | "umov" => [[.neon]]
  | "aese" | "aesd" | "aesmc" => [[.aes]]
  -- RISC-V, 64 bits
  | "aes64es" | "aes64esm" => [[.zkne]]
  | "aes64ds" | "aes64dsm" | "aes64im" => [[.zknd]]
  | "aes64ks1i" | "aes64ks2" => [[.zkne], [.zknd]]
  -- RISC-V, 32 bits
  | "aes32esi" | "aes32esmi" => [[.zkne]]
  | "aes32dsi" | "aes32dsmi" => [[.zknd]]
  | _ => []

/-- Whether the CPU can execute the instruction. -/
def available (cpu : Cpu) (instr : String) : Bool := (extensions instr).any fun fs => fs.all cpu

/-- The CPU implements everything that the compiler was told it may use. -/
def Cpu.Supports (cpu : Cpu) (c : Config.Cfg) : Prop := ∀ f, c.has f = true → cpu f = true

/-! ### Intrinsics

Calling a function of core::arch that has `#[target_feature(enable = ..)]` is undefined behaviour on a CPU without the features, and
the function only exists for some architectures. -/

/-- The families of architectures of core::arch. -/
inductive Family where
  | x86 | arm | riscv64 | riscv32
deriving DecidableEq

/-- The configuration is for the family (on 32-bit Arm, the AES intrinsics need ARMv8). -/
def Family.matches (c : Config.Cfg) : Family → Bool
  | .x86 => c.arch == .x86 || c.arch == .x86_64
  | .arm => c.arch == .aarch64 || c.arch == .arm64ec || (c.arch == .arm && c.has .v8)
  | .riscv64 => c.arch == .riscv64
  | .riscv32 => c.arch == .riscv32

/-- Where core::arch declares an intrinsic, and with which target features (all of one of the sets). For RISC-V: the LLVM intrinsic,
and the extensions with which LLVM can translate it. -/
def declared : String → Option (Family × List (List Feature))
  | "_mm_loadu_si128" | "_mm_storeu_si128" | "_mm_setzero_si128" | "_mm_set1_epi64x" | "_mm_and_si128" | "_mm_or_si128" | "_mm_xor_si128"
  | "_mm_bslli_si128" | "_mm_shuffle_epi32" | "_mm_unpacklo_epi64" => some (.x86, [[.sse2]])
  | "_mm_alignr_epi8" => some (.x86, [[.ssse3]])
  | "_mm_testz_si128" => some (.x86, [[.sse41]])
  | "_mm_aesenc_si128" | "_mm_aesdec_si128" | "_mm_aesenclast_si128" | "_mm_aesdeclast_si128" | "_mm_aesimc_si128"
  | "_mm_aeskeygenassist_si128" => some (.x86, [[.aes]])
  | "_mm256_loadu_si256" | "_mm256_storeu_si256" | "_mm256_setzero_si256" | "_mm256_set1_epi64x" | "_mm256_setr_m128i"
  | "_mm256_castsi128_si256" | "_mm256_testz_si256" => some (.x86, [[.avx]])
  | "_mm256_and_si256" | "_mm256_or_si256" | "_mm256_xor_si256" | "_mm256_broadcastsi128_si256" | "_mm256_extracti128_si256"
  | "_mm256_inserti128_si256" => some (.x86, [[.avx2]])
  | "_mm256_aesenc_epi128" | "_mm256_aesdec_epi128" | "_mm256_aesenclast_epi128" | "_mm256_aesdeclast_epi128" => some (.x86, [[.vaes]])
  | "_mm512_loadu_si512" | "_mm512_storeu_si512" | "_mm512_setzero_si512" | "_mm512_set1_epi64" | "_mm512_and_si512" | "_mm512_or_si512"
  | "_mm512_xor_si512" | "_mm512_cmpeq_epi64_mask" | "_mm512_test_epi64_mask" | "_mm512_castsi256_si512" | "_mm512_inserti64x4"
  | "_mm512_broadcast_i32x4" | "_mm512_broadcast_i64x4" | "_mm512_extracti32x4_epi32" | "_mm512_extracti64x4_epi64" => some (.x86, [[.avx512f]])
  | "_mm512_aesenc_epi128" | "_mm512_aesdec_epi128" | "_mm512_aesenclast_epi128" | "_mm512_aesdeclast_epi128" => some (.x86, [[.vaes, .avx512f]])
  | "vld1q_u8" | "vst1q_u8" | "vandq_u8" | "vorrq_u8" | "veorq_u8" | "vmvnq_u8" | "vdupq_n_u8" | "vdupq_n_u32" | "vreinterpretq_u64_u8"
  | "vreinterpretq_u32_u8" | "vreinterpretq_u8_u32" | "vgetq_lane_u64" | "vgetq_lane_u32" => some (.arm, [[.neon]])
  | "vaeseq_u8" | "vaesdq_u8" | "vaesmcq_u8" | "vaesimcq_u8" => some (.arm, [[.aes]])
  | "llvm.riscv.aes64es" | "llvm.riscv.aes64esm" => some (.riscv64, [[.zkne]])
  | "llvm.riscv.aes64ds" | "llvm.riscv.aes64dsm" | "llvm.riscv.aes64im" => some (.riscv64, [[.zknd]])
  | "llvm.riscv.aes64ks1i" | "llvm.riscv.aes64ks2" => some (.riscv64, [[.zkne], [.zknd]])
  | "llvm.riscv.aes32esi" | "llvm.riscv.aes32esmi" => some (.riscv32, [[.zkne]])
  | "llvm.riscv.aes32dsi" | "llvm.riscv.aes32dsmi" => some (.riscv32, [[.zknd]])
  | _ => none

/-- The intrinsic exists in the configuration, and calling it is defined on every CPU that the configuration is for. -/
def callable (c : Config.Cfg) (intrinsic : String) : Bool :=
  match declared intrinsic with
  | some (fam, sets) => fam.matches c && sets.any fun fs => fs.all c.has
  | none => false

end AesSpec
