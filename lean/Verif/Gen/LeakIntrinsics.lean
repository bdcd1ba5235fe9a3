import Verif.Gen.LeakPrelude
import Verif.Gen.Intrinsics
/-
The functions of `core::arch` and the LLVM intrinsics with leakage: an instruction on registers is one event that carries its
name and nothing of its operands (an assumption about the CPU, see Verif/Model/LeakHw.lean); loads and stores reveal where
they access the buffer they are given. Hand-written. Constants and reinterpretations are no events.
-/
namespace RustSrc.Leak
open Rust
open Aes.Leak (L ins reads writes)

/-! ### x86 -/
section x86
open IsaX86
/-- Used at src/aes_x86.rs:24. -/
def _mm_loadu_si128 (mem_addr : List U8) : L M128i := ⟨reads 0 16, RustSrc._mm_loadu_si128 mem_addr⟩
/-- Used at src/aes_x86.rs:74. -/
def _mm_storeu_si128 (mem_addr : List U8) (a : M128i) : L (List U8) := ⟨writes 16, RustSrc._mm_storeu_si128 mem_addr a⟩
/-- Used at src/aes_x86.rs:33. -/
def _mm_and_si128 (a b : M128i) : L M128i := ins "pand" (RustSrc._mm_and_si128 a b)
/-- Used at src/aes_x86.rs:42. -/
def _mm_or_si128 (a b : M128i) : L M128i := ins "por" (RustSrc._mm_or_si128 a b)
/-- Used at src/aes_x86.rs:51. -/
def _mm_xor_si128 (a b : M128i) : L M128i := ins "pxor" (RustSrc._mm_xor_si128 a b)
/-- Used at src/aes_x86.rs:85. -/
def _mm_testz_si128 (a mask : M128i) : L (BitVec 32) := ins "ptest" (RustSrc._mm_testz_si128 a mask)
/-- Used at src/aes_x86.rs:91. -/
def _mm_aesenc_si128 (a round_key : M128i) : L M128i := ins "aesenc" (RustSrc._mm_aesenc_si128 a round_key)
/-- Used at src/aes_x86.rs:97. -/
def _mm_aesdec_si128 (a round_key : M128i) : L M128i := ins "aesdec" (RustSrc._mm_aesdec_si128 a round_key)
/-- Used at src/aes_x86.rs:103. -/
def _mm_aesenclast_si128 (a round_key : M128i) : L M128i := ins "aesenclast" (RustSrc._mm_aesenclast_si128 a round_key)
/-- Used at src/aes_x86.rs:109. -/
def _mm_aesdeclast_si128 (a round_key : M128i) : L M128i := ins "aesdeclast" (RustSrc._mm_aesdeclast_si128 a round_key)
/-- Used at src/aes_x86.rs:126. -/
def _mm_aesimc_si128 (a : M128i) : L M128i := ins "aesimc" (RustSrc._mm_aesimc_si128 a)
/-- Used at src/aes_x86.rs:142. -/
def _mm_aeskeygenassist_si128 (IMM8 : BitVec 32) (a : M128i) : L M128i := ins "aeskeygenassist" (RustSrc._mm_aeskeygenassist_si128 IMM8 a)
/-- Used at src/aes_x86.rs:132. -/
def _mm_bslli_si128 (IMM8 : BitVec 32) (a : M128i) : L M128i := ins "pslldq" (RustSrc._mm_bslli_si128 IMM8 a)
/-- Used at src/aes_x86.rs:142. -/
def _mm_shuffle_epi32 (IMM8 : BitVec 32) (a : M128i) : L M128i := ins "pshufd" (RustSrc._mm_shuffle_epi32 IMM8 a)
/-- Used at src/aes_x86.rs:164. -/
def _mm_unpacklo_epi64 (a b : M128i) : L M128i := ins "punpcklqdq" (RustSrc._mm_unpacklo_epi64 a b)
/-- Used at src/aes_x86.rs:165. -/
def _mm_alignr_epi8 (IMM8 : BitVec 32) (a b : M128i) : L M128i := ins "palignr" (RustSrc._mm_alignr_epi8 IMM8 a b)
/-- Used at src/aesni_x2.rs:26. -/
def _mm256_loadu_si256 (mem_addr : List U8) : L M256i := ⟨reads 0 32, RustSrc._mm256_loadu_si256 mem_addr⟩
/-- Used at src/aesni_x2.rs:100. -/
def _mm256_storeu_si256 (mem_addr : List U8) (a : M256i) : L (List U8) := ⟨writes 32, RustSrc._mm256_storeu_si256 mem_addr a⟩
/-- Used at src/aesni_x2.rs:61. -/
def _mm256_and_si256 (a b : M256i) : L M256i := ins "vpand ymm" (RustSrc._mm256_and_si256 a b)
/-- Used at src/aesni_x2.rs:69. -/
def _mm256_or_si256 (a b : M256i) : L M256i := ins "vpor ymm" (RustSrc._mm256_or_si256 a b)
/-- Used at src/aesni_x2.rs:78. -/
def _mm256_xor_si256 (a b : M256i) : L M256i := ins "vpxor ymm" (RustSrc._mm256_xor_si256 a b)
/-- Used at src/aesni_x2.rs:111. -/
def _mm256_testz_si256 (a b : M256i) : L (BitVec 32) := ins "vptest ymm" (RustSrc._mm256_testz_si256 a b)
/-- Used at src/aesni_x2.rs:117. -/
def _mm256_aesenc_epi128 (a round_key : M256i) : L M256i := ins "vaesenc ymm" (RustSrc._mm256_aesenc_epi128 a round_key)
/-- Used at src/aesni_x2.rs:123. -/
def _mm256_aesdec_epi128 (a round_key : M256i) : L M256i := ins "vaesdec ymm" (RustSrc._mm256_aesdec_epi128 a round_key)
/-- Used at src/aesni_x2.rs:129. -/
def _mm256_aesenclast_epi128 (a round_key : M256i) : L M256i := ins "vaesenclast ymm" (RustSrc._mm256_aesenclast_epi128 a round_key)
/-- Used at src/aesni_x2.rs:135. -/
def _mm256_aesdeclast_epi128 (a round_key : M256i) : L M256i := ins "vaesdeclast ymm" (RustSrc._mm256_aesdeclast_epi128 a round_key)
/-- Used at src/aesni_x4.rs:27. -/
def _mm512_loadu_si512 (mem_addr : List U8) : L M512i := ⟨reads 0 64, RustSrc._mm512_loadu_si512 mem_addr⟩
/-- Used at src/aesni_x4.rs:136. -/
def _mm512_storeu_si512 (mem_addr : List U8) (a : M512i) : L (List U8) := ⟨writes 64, RustSrc._mm512_storeu_si512 mem_addr a⟩
/-- Used at src/aesni_x4.rs:96. -/
def _mm512_and_si512 (a b : M512i) : L M512i := ins "vpandq zmm" (RustSrc._mm512_and_si512 a b)
/-- Used at src/aesni_x4.rs:105. -/
def _mm512_or_si512 (a b : M512i) : L M512i := ins "vporq zmm" (RustSrc._mm512_or_si512 a b)
/-- Used at src/aesni_x4.rs:114. -/
def _mm512_xor_si512 (a b : M512i) : L M512i := ins "vpxorq zmm" (RustSrc._mm512_xor_si512 a b)
/-- Used at src/aesni_x4.rs:18. -/
def _mm512_cmpeq_epi64_mask (a b : M512i) : L U8 := ins "vpcmpeqq zmm" (RustSrc._mm512_cmpeq_epi64_mask a b)
/-- Used at src/aesni_x4.rs:147. -/
def _mm512_test_epi64_mask (a b : M512i) : L U8 := ins "vptestmq zmm" (RustSrc._mm512_test_epi64_mask a b)
/-- Used at src/aesni_x4.rs:153. -/
def _mm512_aesenc_epi128 (a round_key : M512i) : L M512i := ins "vaesenc zmm" (RustSrc._mm512_aesenc_epi128 a round_key)
/-- Used at src/aesni_x4.rs:159. -/
def _mm512_aesdec_epi128 (a round_key : M512i) : L M512i := ins "vaesdec zmm" (RustSrc._mm512_aesdec_epi128 a round_key)
/-- Used at src/aesni_x4.rs:165. -/
def _mm512_aesenclast_epi128 (a round_key : M512i) : L M512i := ins "vaesenclast zmm" (RustSrc._mm512_aesenclast_epi128 a round_key)
/-- Used at src/aesni_x4.rs:171. -/
def _mm512_aesdeclast_epi128 (a round_key : M512i) : L M512i := ins "vaesdeclast zmm" (RustSrc._mm512_aesdeclast_epi128 a round_key)
end x86

/-! ### Arm -/
section arm
open IsaArm
/-- Used at src/aes_arm.rs:25. -/
def vld1q_u8 (ptr : List U8) : L U8x16 := ⟨reads 0 16, RustSrc.vld1q_u8 ptr⟩
/-- Used at src/aes_arm.rs:75. -/
def vst1q_u8 (ptr : List U8) (a : U8x16) : L (List U8) := ⟨writes 16, RustSrc.vst1q_u8 ptr a⟩
/-- Used at src/aes_arm.rs:34. -/
def vandq_u8 (a b : U8x16) : L U8x16 := ins "and" (RustSrc.vandq_u8 a b)
/-- Used at src/aes_arm.rs:43. -/
def vorrq_u8 (a b : U8x16) : L U8x16 := ins "orr" (RustSrc.vorrq_u8 a b)
/-- Used at src/aes_arm.rs:52. -/
def veorq_u8 (a b : U8x16) : L U8x16 := ins "eor" (RustSrc.veorq_u8 a b)
/-- Used at src/aes_arm.rs:61. -/
def vmvnq_u8 (a : U8x16) : L U8x16 := ins "mvn" (RustSrc.vmvnq_u8 a)
/-- Used at src/aes_arm.rs:161. -/
def vdupq_n_u32 (value : U32) : L U8x16 := ins "dup" (RustSrc.vdupq_n_u32 value)
/-- Used at src/aes_arm.rs:89. -/
def vgetq_lane_u64 (IMM5 : BitVec 32) (v : U8x16) : L U64 := ins "umov" (RustSrc.vgetq_lane_u64 IMM5 v)
/-- Used at src/aes_arm.rs:94. -/
def vgetq_lane_u32 (IMM5 : BitVec 32) (v : U8x16) : L U32 := ins "umov" (RustSrc.vgetq_lane_u32 IMM5 v)
/-- Used at src/aes_arm.rs:104. -/
def vaeseq_u8 (data key : U8x16) : L U8x16 := ins "aese" (RustSrc.vaeseq_u8 data key)
/-- Used at src/aes_arm.rs:120. -/
def vaesdq_u8 (data key : U8x16) : L U8x16 := ins "aesd" (RustSrc.vaesdq_u8 data key)
/-- Used at src/aes_arm.rs:149. -/
def vaesmcq_u8 (data : U8x16) : L U8x16 := ins "aesmc" (RustSrc.vaesmcq_u8 data)
/-- Used at src/aes_arm.rs:155. -/
def vaesimcq_u8 (data : U8x16) : L U8x16 := ins "aesimc" (RustSrc.vaesimcq_u8 data)
end arm

/-! ### RISC-V -/
namespace llvm.riscv
/-- Used at src/aes_riscv64.rs:5. -/
def aes64esm (rs1 rs2 : U64) : L U64 := ins "aes64esm" (RustSrc.llvm.riscv.aes64esm rs1 rs2)
/-- Used at src/aes_riscv64.rs:7. -/
def aes64es (rs1 rs2 : U64) : L U64 := ins "aes64es" (RustSrc.llvm.riscv.aes64es rs1 rs2)
/-- Used at src/aes_riscv64.rs:9. -/
def aes64dsm (rs1 rs2 : U64) : L U64 := ins "aes64dsm" (RustSrc.llvm.riscv.aes64dsm rs1 rs2)
/-- Used at src/aes_riscv64.rs:11. -/
def aes64ds (rs1 rs2 : U64) : L U64 := ins "aes64ds" (RustSrc.llvm.riscv.aes64ds rs1 rs2)
/-- Used at src/aes_riscv64.rs:13. -/
def aes64im (rs1 : U64) : L U64 := ins "aes64im" (RustSrc.llvm.riscv.aes64im rs1)
/-- Used at src/aes_riscv64.rs:15. -/
def aes64ks1i (rs1 : U64) (rnum : U32) : L U64 := ins "aes64ks1i" (RustSrc.llvm.riscv.aes64ks1i rs1 rnum)
/-- Used at src/aes_riscv64.rs:17. -/
def aes64ks2 (rs1 rs2 : U64) : L U64 := ins "aes64ks2" (RustSrc.llvm.riscv.aes64ks2 rs1 rs2)
/-- Used at src/aes_riscv32.rs:10. -/
def aes32esmi (rs1 rs2 bs : U32) : L U32 := ins "aes32esmi" (RustSrc.llvm.riscv.aes32esmi rs1 rs2 bs)
/-- Used at src/aes_riscv32.rs:12. -/
def aes32esi (rs1 rs2 bs : U32) : L U32 := ins "aes32esi" (RustSrc.llvm.riscv.aes32esi rs1 rs2 bs)
/-- Used at src/aes_riscv32.rs:14. -/
def aes32dsmi (rs1 rs2 bs : U32) : L U32 := ins "aes32dsmi" (RustSrc.llvm.riscv.aes32dsmi rs1 rs2 bs)
/-- Used at src/aes_riscv32.rs:16. -/
def aes32dsi (rs1 rs2 bs : U32) : L U32 := ins "aes32dsi" (RustSrc.llvm.riscv.aes32dsi rs1 rs2 bs)
end llvm.riscv

end RustSrc.Leak
