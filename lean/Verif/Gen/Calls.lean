import Verif.Model.Config
/-
The intrinsics of core::arch that each module of the crate names, and the LLVM intrinsics that it links to.
Generated by tools/rust2lean.py; do not edit.
-/
namespace RustSrc.Calls
open Rust
open Aes.Config

/-- src/aes_x86.rs:1-249, src/aes_arm.rs:1-254, src/aes_riscv64.rs:1-249, src/aes_riscv32.rs:1-270, src/aes_bitslice.rs:1-435, src/aes_table_based.rs:1-734: the intrinsics that the module names. -/
def block : BlockMod → List String
  | .aes_x86 => ["_mm_loadu_si128", "_mm_and_si128", "_mm_or_si128", "_mm_xor_si128", "_mm_set1_epi64x", "_mm_storeu_si128", "_mm_setzero_si128", "_mm_testz_si128", "_mm_aesenc_si128", "_mm_aesdec_si128", "_mm_aesenclast_si128", "_mm_aesdeclast_si128", "_mm_aesimc_si128", "_mm_bslli_si128", "_mm_shuffle_epi32", "_mm_aeskeygenassist_si128", "_mm_unpacklo_epi64", "_mm_alignr_epi8"]
  | .aes_arm => ["vld1q_u8", "vandq_u8", "vorrq_u8", "veorq_u8", "vmvnq_u8", "vst1q_u8", "vdupq_n_u8", "vreinterpretq_u64_u8", "vgetq_lane_u64", "vreinterpretq_u32_u8", "vgetq_lane_u32", "vaeseq_u8", "vaesdq_u8", "vaesmcq_u8", "vaesimcq_u8", "vreinterpretq_u8_u32", "vdupq_n_u32"]
  | .aes_riscv64 => ["llvm.riscv.aes64esm", "llvm.riscv.aes64es", "llvm.riscv.aes64dsm", "llvm.riscv.aes64ds", "llvm.riscv.aes64im", "llvm.riscv.aes64ks1i", "llvm.riscv.aes64ks2"]
  | .aes_riscv32 => ["llvm.riscv.aes32esmi", "llvm.riscv.aes32esi", "llvm.riscv.aes32dsmi", "llvm.riscv.aes32dsi"]
  | .aes_bitslice => []
  | .aes_table_based => []

/-- src/aesni_x2.rs:1-137, src/aesdefault_x2.rs:1-124: the intrinsics that the module names. -/
def x2 : X2Mod → List String
  | .aesni_x2 => ["_mm256_loadu_si256", "_mm256_setr_m128i", "_mm256_broadcastsi128_si256", "_mm256_extracti128_si256", "_mm256_and_si256", "_mm256_or_si256", "_mm256_xor_si256", "_mm256_set1_epi64x", "_mm256_storeu_si256", "_mm256_setzero_si256", "_mm256_testz_si256", "_mm256_aesenc_epi128", "_mm256_aesdec_epi128", "_mm256_aesenclast_epi128", "_mm256_aesdeclast_epi128"]
  | .aesdefault_x2 => []

/-- src/aesni_x4.rs:1-173, src/aesdefault_x4.rs:1-147: the intrinsics that the module names. -/
def x4 : X4Mod → List String
  | .aesni_x4 => ["_mm512_cmpeq_epi64_mask", "_mm512_loadu_si512", "_mm256_inserti128_si256", "_mm256_castsi128_si256", "_mm512_inserti64x4", "_mm512_castsi256_si512", "_mm512_broadcast_i32x4", "_mm512_extracti32x4_epi32", "_mm512_broadcast_i64x4", "_mm512_extracti64x4_epi64", "_mm512_and_si512", "_mm512_or_si512", "_mm512_xor_si512", "_mm512_set1_epi64", "_mm512_storeu_si512", "_mm512_setzero_si512", "_mm512_test_epi64_mask", "_mm512_aesenc_epi128", "_mm512_aesdec_epi128", "_mm512_aesenclast_epi128", "_mm512_aesdeclast_epi128"]
  | .aesdefault_x4 => []

end RustSrc.Calls
