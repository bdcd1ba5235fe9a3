import Verif.Gen.Prelude
/-
The functions of `core::arch` and the LLVM intrinsics the crate calls, under their Rust names, in terms of the instruction
models Verif/Model/Isa*.lean. Hand-written. `i32` constants (const generics) are `BitVec 32`.
-/
namespace RustSrc
open Rust

/-! ### x86 -/
section x86
open IsaX86

/-- Used at src/aes_x86.rs:24. -/
def _mm_loadu_si128 (mem_addr : List U8) : M M128i := loadu 16 mem_addr
/-- Used at src/aes_x86.rs:74. -/
def _mm_storeu_si128 (mem_addr : List U8) (a : M128i) : M (List U8) := storeu mem_addr a
/-- Used at src/aes_x86.rs:33. -/
def _mm_and_si128 (a b : M128i) : M128i := and a b
/-- Used at src/aes_x86.rs:42. -/
def _mm_or_si128 (a b : M128i) : M128i := or a b
/-- Used at src/aes_x86.rs:51. -/
def _mm_xor_si128 (a b : M128i) : M128i := xor a b
/-- Used at src/aes_x86.rs:60. -/
def _mm_set1_epi64x (a : BitVec 64) : M128i := Vector.ofFn fun i => (toLe 8 a)[i.val % 8]
/-- Used at src/aes_x86.rs:79. -/
def _mm_setzero_si128 : M128i := setzero
/-- Used at src/aes_x86.rs:85. -/
def _mm_testz_si128 (a mask : M128i) : BitVec 32 := BitVec.ofNat 32 (testz a mask)
/-- Used at src/aes_x86.rs:91. -/
def _mm_aesenc_si128 (a round_key : M128i) : M128i := aesenc a round_key
/-- Used at src/aes_x86.rs:97. -/
def _mm_aesdec_si128 (a round_key : M128i) : M128i := aesdec a round_key
/-- Used at src/aes_x86.rs:103. -/
def _mm_aesenclast_si128 (a round_key : M128i) : M128i := aesenclast a round_key
/-- Used at src/aes_x86.rs:109. -/
def _mm_aesdeclast_si128 (a round_key : M128i) : M128i := aesdeclast a round_key
/-- Used at src/aes_x86.rs:126. -/
def _mm_aesimc_si128 (a : M128i) : M128i := aesimc a
/-- Used at src/aes_x86.rs:142. -/
def _mm_aeskeygenassist_si128 (IMM8 : BitVec 32) (a : M128i) : M128i := aeskeygenassist (IMM8.setWidth 8) a
/-- Used at src/aes_x86.rs:132. -/
def _mm_bslli_si128 (IMM8 : BitVec 32) (a : M128i) : M128i := bslli (IMM8.setWidth 8).toNat a
/-- Used at src/aes_x86.rs:142. -/
def _mm_shuffle_epi32 (IMM8 : BitVec 32) (a : M128i) : M128i := shuffle_epi32 (IMM8.setWidth 8) a
/-- Used at src/aes_x86.rs:164. -/
def _mm_unpacklo_epi64 (a b : M128i) : M128i := unpacklo_epi64 a b
/-- Used at src/aes_x86.rs:165. -/
def _mm_alignr_epi8 (IMM8 : BitVec 32) (a b : M128i) : M128i := alignr_epi8 (IMM8.setWidth 8).toNat a b

/-- Used at src/aesni_x2.rs:26. -/
def _mm256_loadu_si256 (mem_addr : List U8) : M M256i := loadu 32 mem_addr
/-- Used at src/aesni_x2.rs:100. -/
def _mm256_storeu_si256 (mem_addr : List U8) (a : M256i) : M (List U8) := storeu mem_addr a
/-- Used at src/aesni_x2.rs:61. -/
def _mm256_and_si256 (a b : M256i) : M256i := and a b
/-- Used at src/aesni_x2.rs:69. -/
def _mm256_or_si256 (a b : M256i) : M256i := or a b
/-- Used at src/aesni_x2.rs:78. -/
def _mm256_xor_si256 (a b : M256i) : M256i := xor a b
/-- Used at src/aesni_x2.rs:87. -/
def _mm256_set1_epi64x (a : BitVec 64) : M256i := Vector.ofFn fun i => (toLe 8 a)[i.val % 8]
/-- Used at src/aesni_x2.rs:105. -/
def _mm256_setzero_si256 : M256i := setzero
/-- Used at src/aesni_x2.rs:111. -/
def _mm256_testz_si256 (a b : M256i) : BitVec 32 := BitVec.ofNat 32 (testz a b)
/-- Used at src/aesni_x2.rs:33. -/
def _mm256_setr_m128i (lo hi : M128i) : M256i := setr_m128i lo hi
/-- Used at src/aesni_x2.rs:40. -/
def _mm256_broadcastsi128_si256 (a : M128i) : M256i := broadcastsi128_si256 a
/-- Used at src/aesni_x2.rs:49. -/
def _mm256_extracti128_si256 (IMM1 : BitVec 32) (a : M256i) : M128i := extracti128_si256 (IMM1.toNat % 2) a
/-- Used at src/aesni_x4.rs:36. -/
def _mm256_castsi128_si256 (a : M128i) : M256i := castsi128_si256 a
/-- Used at src/aesni_x4.rs:36. -/
def _mm256_inserti128_si256 (IMM1 : BitVec 32) (a : M256i) (b : M128i) : M256i :=
  if IMM1.toNat % 2 = 1 then inserti128_si256_1 a b else b ++ lane2 a 1
/-- Used at src/aesni_x2.rs:117. -/
def _mm256_aesenc_epi128 (a round_key : M256i) : M256i := lanewise2 aesenc a round_key
/-- Used at src/aesni_x2.rs:123. -/
def _mm256_aesdec_epi128 (a round_key : M256i) : M256i := lanewise2 aesdec a round_key
/-- Used at src/aesni_x2.rs:129. -/
def _mm256_aesenclast_epi128 (a round_key : M256i) : M256i := lanewise2 aesenclast a round_key
/-- Used at src/aesni_x2.rs:135. -/
def _mm256_aesdeclast_epi128 (a round_key : M256i) : M256i := lanewise2 aesdeclast a round_key

/-- Used at src/aesni_x4.rs:27. -/
def _mm512_loadu_si512 (mem_addr : List U8) : M M512i := loadu 64 mem_addr
/-- Used at src/aesni_x4.rs:136. -/
def _mm512_storeu_si512 (mem_addr : List U8) (a : M512i) : M (List U8) := storeu mem_addr a
/-- Used at src/aesni_x4.rs:96. -/
def _mm512_and_si512 (a b : M512i) : M512i := and a b
/-- Used at src/aesni_x4.rs:105. -/
def _mm512_or_si512 (a b : M512i) : M512i := or a b
/-- Used at src/aesni_x4.rs:114. -/
def _mm512_xor_si512 (a b : M512i) : M512i := xor a b
/-- Used at src/aesni_x4.rs:123. -/
def _mm512_set1_epi64 (a : BitVec 64) : M512i := Vector.ofFn fun i => (toLe 8 a)[i.val % 8]
/-- Used at src/aesni_x4.rs:141. -/
def _mm512_setzero_si512 : M512i := setzero
/-- Used at src/aesni_x4.rs:18. -/
def _mm512_cmpeq_epi64_mask (a b : M512i) : U8 := cmpeq_epi64_mask a b
/-- Used at src/aesni_x4.rs:147. -/
def _mm512_test_epi64_mask (a b : M512i) : U8 := test_epi64_mask a b
/-- Used at src/aesni_x4.rs:39. -/
def _mm512_castsi256_si512 (a : M256i) : M512i := castsi256_si512 a
/-- Used at src/aesni_x4.rs:39. -/
def _mm512_inserti64x4 (IMM1 : BitVec 32) (a : M512i) (b : M256i) : M512i :=
  if IMM1.toNat % 2 = 1 then inserti64x4_1 a b else b ++ sub a 32 32
/-- Used at src/aesni_x4.rs:47. -/
def _mm512_broadcast_i32x4 (a : M128i) : M512i := broadcast_i32x4 a
/-- Used at src/aesni_x4.rs:75. -/
def _mm512_broadcast_i64x4 (a : M256i) : M512i := broadcast_i64x4 a
/-- Used at src/aesni_x4.rs:56. -/
def _mm512_extracti32x4_epi32 (IMM2 : BitVec 32) (a : M512i) : M128i := extracti32x4_epi32 (IMM2.toNat % 4) a
/-- Used at src/aesni_x4.rs:84. -/
def _mm512_extracti64x4_epi64 (IMM1 : BitVec 32) (a : M512i) : M256i := extracti64x4_epi64 (IMM1.toNat % 2) a
/-- Used at src/aesni_x4.rs:153. -/
def _mm512_aesenc_epi128 (a round_key : M512i) : M512i := lanewise4 aesenc a round_key
/-- Used at src/aesni_x4.rs:159. -/
def _mm512_aesdec_epi128 (a round_key : M512i) : M512i := lanewise4 aesdec a round_key
/-- Used at src/aesni_x4.rs:165. -/
def _mm512_aesenclast_epi128 (a round_key : M512i) : M512i := lanewise4 aesenclast a round_key
/-- Used at src/aesni_x4.rs:171. -/
def _mm512_aesdeclast_epi128 (a round_key : M512i) : M512i := lanewise4 aesdeclast a round_key

end x86

/-! ### Arm (`uint8x16_t`, `uint32x4_t` and `uint64x2_t` are all the 16 bytes of the register) -/
section arm
open IsaArm

/-- Used at src/aes_arm.rs:25. -/
def vld1q_u8 (ptr : List U8) : M U8x16 := IsaArm.vld1q_u8 ptr
/-- Used at src/aes_arm.rs:75. -/
def vst1q_u8 (ptr : List U8) (a : U8x16) : M (List U8) := IsaArm.vst1q_u8 ptr a
/-- Used at src/aes_arm.rs:34. -/
def vandq_u8 (a b : U8x16) : U8x16 := vandq a b
/-- Used at src/aes_arm.rs:43. -/
def vorrq_u8 (a b : U8x16) : U8x16 := vorrq a b
/-- Used at src/aes_arm.rs:52. -/
def veorq_u8 (a b : U8x16) : U8x16 := veorq a b
/-- Used at src/aes_arm.rs:61. -/
def vmvnq_u8 (a : U8x16) : U8x16 := vmvnq a
/-- Used at src/aes_arm.rs:80. -/
def vdupq_n_u8 (value : U8) : U8x16 := IsaArm.vdupq_n_u8 value
/-- Used at src/aes_arm.rs:161. -/
def vdupq_n_u32 (value : U32) : U8x16 := vdupq_n_u32_bytes value
/-- Used at src/aes_arm.rs:88. -/
def vreinterpretq_u64_u8 (a : U8x16) : U8x16 := a
/-- Used at src/aes_arm.rs:93. -/
def vreinterpretq_u32_u8 (a : U8x16) : U8x16 := a
/-- Used at src/aes_arm.rs:161. -/
def vreinterpretq_u8_u32 (a : U8x16) : U8x16 := a
/-- Used at src/aes_arm.rs:89. -/
def vgetq_lane_u64 (IMM5 : BitVec 32) (v : U8x16) : U64 := lane_u64 (Fin.ofNat 2 IMM5.toNat) v
/-- Used at src/aes_arm.rs:94. -/
def vgetq_lane_u32 (IMM5 : BitVec 32) (v : U8x16) : U32 := lane_u32 (Fin.ofNat 4 IMM5.toNat) v
/-- Used at src/aes_arm.rs:104. -/
def vaeseq_u8 (data key : U8x16) : U8x16 := vaeseq data key
/-- Used at src/aes_arm.rs:120. -/
def vaesdq_u8 (data key : U8x16) : U8x16 := vaesdq data key
/-- Used at src/aes_arm.rs:149. -/
def vaesmcq_u8 (data : U8x16) : U8x16 := vaesmcq data
/-- Used at src/aes_arm.rs:155. -/
def vaesimcq_u8 (data : U8x16) : U8x16 := vaesimcq data

end arm

/-! ### RISC-V: the `link_name`s of the `extern` blocks -/
namespace llvm.riscv
/-- Used at src/aes_riscv64.rs:5. -/
def aes64esm (rs1 rs2 : U64) : U64 := IsaRiscv.aes64esm rs1 rs2
/-- Used at src/aes_riscv64.rs:7. -/
def aes64es (rs1 rs2 : U64) : U64 := IsaRiscv.aes64es rs1 rs2
/-- Used at src/aes_riscv64.rs:9. -/
def aes64dsm (rs1 rs2 : U64) : U64 := IsaRiscv.aes64dsm rs1 rs2
/-- Used at src/aes_riscv64.rs:11. -/
def aes64ds (rs1 rs2 : U64) : U64 := IsaRiscv.aes64ds rs1 rs2
/-- Used at src/aes_riscv64.rs:13. -/
def aes64im (rs1 : U64) : U64 := IsaRiscv.aes64im rs1
/-- Used at src/aes_riscv64.rs:15. -/
def aes64ks1i (rs1 : U64) (rnum : U32) : U64 := IsaRiscv.aes64ks1i rs1 rnum.toNat
/-- Used at src/aes_riscv64.rs:17. -/
def aes64ks2 (rs1 rs2 : U64) : U64 := IsaRiscv.aes64ks2 rs1 rs2
/-- Used at src/aes_riscv32.rs:10. -/
def aes32esmi (rs1 rs2 bs : U32) : U32 := IsaRiscv.aes32esmi rs1 rs2 bs.toNat
/-- Used at src/aes_riscv32.rs:12. -/
def aes32esi (rs1 rs2 bs : U32) : U32 := IsaRiscv.aes32esi rs1 rs2 bs.toNat
/-- Used at src/aes_riscv32.rs:14. -/
def aes32dsmi (rs1 rs2 bs : U32) : U32 := IsaRiscv.aes32dsmi rs1 rs2 bs.toNat
/-- Used at src/aes_riscv32.rs:16. -/
def aes32dsi (rs1 rs2 bs : U32) : U32 := IsaRiscv.aes32dsi rs1 rs2 bs.toNat
end llvm.riscv

end RustSrc
