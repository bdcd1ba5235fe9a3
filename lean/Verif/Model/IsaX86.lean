import Verif.Rust
import Verif.Spec.Fips197
/-
Semantics of the x86 intrinsics the code uses (src/aes_x86.rs, src/aesni_x2.rs, src/aesni_x4.rs), as
documented in the Intel SDM / Intrinsics Guide. Part of the trusted base (there is no code in /repo for
them). A vector register is its bytes in memory order (byte 0 is bits 7:0), which is the order
`_mm_loadu_si128`/`_mm_storeu_si128` and `transmute` use on x86.
The AES instructions are documented by Intel in terms of the FIPS-197 transformations.
-/
namespace IsaX86
open Rust Fips197

/-- `__m128i`. -/
abbrev M128i := Vector U8 16
/-- `__m256i`. -/
abbrev M256i := Vector U8 32
/-- `__m512i`. -/
abbrev M512i := Vector U8 64

/-- Bytes `off .. off+m-1` of a register (zero past the end; all uses below are in range). -/
def sub {n : Nat} (v : Vector U8 n) (off m : Nat) : Vector U8 m :=
  Vector.ofFn fun i => v.toList.getD (off + i.val) 0#8

/-- `_mm_and_si128` and its 256/512-bit versions. -/
def and {n} (a b : Vector U8 n) : Vector U8 n := Vector.zipWith (· &&& ·) a b
/-- `_mm_or_si128` and its 256/512-bit versions. -/
def or {n} (a b : Vector U8 n) : Vector U8 n := Vector.zipWith (· ||| ·) a b
/-- `_mm_xor_si128` and its 256/512-bit versions. -/
def xor {n} (a b : Vector U8 n) : Vector U8 n := Vector.zipWith (· ^^^ ·) a b
/-- `_mm_setzero_si128` and its 256/512-bit versions. -/
def setzero {n} : Vector U8 n := Vector.replicate n 0#8
/-- `_mm_set1_epi64x(-1)` and its 256/512-bit versions: all ones. -/
def set1_minus1 {n} : Vector U8 n := Vector.replicate n 0xff#8

/-- `_mm_loadu_si128(ptr)` and its 256/512-bit versions, `ptr` the start of `src`. -/
def loadu (n : Nat) (src : List U8) : M (Vector U8 n) := rawRead src 0 n
/-- `_mm_storeu_si128(ptr, v)` and its 256/512-bit versions, `ptr` the start of `dst`. -/
def storeu {n : Nat} (dst : List U8) (v : Vector U8 n) : M (List U8) := rawWrite dst v

/-- `_mm_testz_si128(a, b)` and the 256-bit version: 1 if `a & b` is all zeros, else 0. -/
def testz {n} (a b : Vector U8 n) : Nat :=
  if (and a b).all (· == 0#8) then 1 else 0

/-- `_mm_aesenc_si128`: ShiftRows, SubBytes, MixColumns, xor the round key. -/
def aesenc (a k : M128i) : M128i :=
  xor (State.toBytes (mixColumns (subBytes (shiftRows (State.ofBytes a))))) k
/-- `_mm_aesenclast_si128`. -/
def aesenclast (a k : M128i) : M128i :=
  xor (State.toBytes (subBytes (shiftRows (State.ofBytes a)))) k
/-- `_mm_aesdec_si128`: InvShiftRows, InvSubBytes, InvMixColumns, xor the round key. -/
def aesdec (a k : M128i) : M128i :=
  xor (State.toBytes (invMixColumns (invSubBytes (invShiftRows (State.ofBytes a))))) k
/-- `_mm_aesdeclast_si128`. -/
def aesdeclast (a k : M128i) : M128i :=
  xor (State.toBytes (invSubBytes (invShiftRows (State.ofBytes a)))) k
/-- `_mm_aesimc_si128`. -/
def aesimc (a : M128i) : M128i := State.toBytes (invMixColumns (State.ofBytes a))

/-- `_mm_aeskeygenassist_si128::<RCON>`: with `X1` = bytes 4..7 and `X3` = bytes 12..15 the dwords are
`SubWord(X1)`, `RotWord(SubWord(X1)) ^ RCON`, `SubWord(X3)`, `RotWord(SubWord(X3)) ^ RCON`;
`RotWord` moves byte 1 to byte 0 and byte 0 to byte 3, `RCON` is in byte 0. -/
def aeskeygenassist (rcon : U8) (a : M128i) : M128i :=
  #v[sbox a[4], sbox a[5], sbox a[6], sbox a[7],
     sbox a[5] ^^^ rcon, sbox a[6], sbox a[7], sbox a[4],
     sbox a[12], sbox a[13], sbox a[14], sbox a[15],
     sbox a[13] ^^^ rcon, sbox a[14], sbox a[15], sbox a[12]]

/-- `_mm_bslli_si128::<IMM>`: shift left by `IMM` bytes, zeros in. -/
def bslli (imm : Nat) (a : M128i) : M128i :=
  Vector.ofFn fun i => if i.val < imm then 0#8 else a[i.val - imm]

/-- `_mm_shuffle_epi32::<IMM>`: result dword `d` is source dword `(IMM >> 2d) & 3`. -/
def shuffle_epi32 (imm : U8) (a : M128i) : M128i :=
  Vector.ofFn fun i => a[4 * ((imm >>> (2 * (i.val / 4))) &&& 3#8).toNat % 16 + i.val % 4]'(by omega)

/-- `_mm_unpacklo_epi64(a, b)`: low qwords of `a` and `b`. -/
def unpacklo_epi64 (a b : M128i) : M128i :=
  Vector.ofFn fun i => if i.val < 8 then a[i.val] else b[i.val - 8]

/-- `_mm_alignr_epi8::<IMM>(a, b)` (`IMM ≤ 16`): the low 16 bytes of `(a:b) >> (8*IMM)`. -/
def alignr_epi8 (imm : Nat) (a b : M128i) : M128i :=
  Vector.ofFn fun i => if h : i.val + imm < 16 then b[i.val + imm]
    else (a.toList.getD (i.val + imm - 16) 0#8)

/-! ### 256-bit (AVX2, VAES) -/

/-- Lanes of a 256-bit register. -/
def lane2 (a : M256i) (i : Nat) : M128i := sub a (16 * i) 16
/-- Lanes of a 512-bit register. -/
def lane4 (a : M512i) (i : Nat) : M128i := sub a (16 * i) 16

/-- `_mm256_setr_m128i(lo, hi)`. -/
def setr_m128i (lo hi : M128i) : M256i := lo ++ hi
/-- `_mm256_broadcastsi128_si256`. -/
def broadcastsi128_si256 (a : M128i) : M256i := a ++ a
/-- `_mm256_extracti128_si256::<IMM>`. -/
def extracti128_si256 (imm : Nat) (a : M256i) : M128i := sub a (16 * imm) 16
/-- `_mm256_aesenc_epi128` and its siblings: the 128-bit instruction in each lane. -/
def lanewise2 (f : M128i → M128i → M128i) (a k : M256i) : M256i :=
  f (lane2 a 0) (lane2 k 0) ++ f (lane2 a 1) (lane2 k 1)
/-- `_mm512_aesenc_epi128` and its siblings: the 128-bit instruction in each lane. -/
def lanewise4 (f : M128i → M128i → M128i) (a k : M512i) : M512i :=
  (f (lane4 a 0) (lane4 k 0) ++ f (lane4 a 1) (lane4 k 1)) ++
    (f (lane4 a 2) (lane4 k 2) ++ f (lane4 a 3) (lane4 k 3))

/-- The upper half after `_mm256_castsi128_si256` is undefined; nothing is known about it. -/
opaque undefinedUpper256 : M128i → M128i
/-- The upper half after `_mm512_castsi256_si512` is undefined; nothing is known about it. -/
opaque undefinedUpper512 : M256i → M256i
/-- `_mm256_castsi128_si256`. -/
def castsi128_si256 (a : M128i) : M256i := a ++ undefinedUpper256 a
/-- `_mm512_castsi256_si512`. -/
def castsi256_si512 (a : M256i) : M512i := a ++ undefinedUpper512 a
/-- `_mm256_inserti128_si256::<1>(a, b)`: `a` with its upper half replaced by `b`. -/
def inserti128_si256_1 (a : M256i) (b : M128i) : M256i := lane2 a 0 ++ b
/-- `_mm512_inserti64x4::<1>(a, b)`: `a` with its upper half replaced by `b`. -/
def inserti64x4_1 (a : M512i) (b : M256i) : M512i := sub a 0 32 ++ b
/-- `_mm512_broadcast_i32x4`. -/
def broadcast_i32x4 (a : M128i) : M512i := (a ++ a) ++ (a ++ a)
/-- `_mm512_broadcast_i64x4`. -/
def broadcast_i64x4 (a : M256i) : M512i := a ++ a
/-- `_mm512_extracti32x4_epi32::<IMM>`. -/
def extracti32x4_epi32 (imm : Nat) (a : M512i) : M128i := sub a (16 * imm) 16
/-- `_mm512_extracti64x4_epi64::<IMM>`. -/
def extracti64x4_epi64 (imm : Nat) (a : M512i) : M256i := sub a (32 * imm) 32

/-- The 8-bit mask with bit `i` set when `p i`. -/
def mask8 (p : Nat → Bool) : U8 :=
  (List.range 8).foldr (fun i acc => acc ||| (if p i then 1#8 <<< i else 0#8)) 0#8

/-- `_mm512_cmpeq_epi64_mask`: bit `i` of the mask is set when the `i`-th qwords are equal. -/
def cmpeq_epi64_mask (a b : M512i) : U8 :=
  mask8 fun i => sub a (8 * i) 8 == sub b (8 * i) 8
/-- `_mm512_test_epi64_mask`: bit `i` of the mask is set when the `i`-th qword of `a & b` is not zero. -/
def test_epi64_mask (a b : M512i) : U8 :=
  mask8 fun i => !(sub (and a b) (8 * i) 8 == setzero)

end IsaX86
