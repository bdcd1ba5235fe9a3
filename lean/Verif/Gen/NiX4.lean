import Verif.Gen.Core
import Verif.Gen.Intrinsics
/-
src/aesni_x4.rs, function by function.
Generated by tools/rust2lean.py; do not edit.
-/
namespace RustSrc.NiX4
open Rust
open RustSrc.Core
variable [Cfg]

/-- src/aesni_x4.rs:10-13 `repr(transparent)` of `AesBlockX4`. -/
instance : Layout Aes.NiX4.X4 64 where
  bytes self := Layout.bytes self.val
  ofBytes b := ⟨Layout.ofBytes b⟩

/-- src/aesni_x4.rs:17-19 `eq`. -/
def eq (self : Aes.NiX4.X4) (other : Aes.NiX4.X4) : Bool :=
  (_mm512_cmpeq_epi64_mask self.val other.val) == 0xff#8

/-- src/aesni_x4.rs:26-28 `from`. -/
def from_bytes (value : Vector U8 64) : M Aes.NiX4.X4 := do
  pure (⟨(← _mm512_loadu_si512 value.toList)⟩ : Aes.NiX4.X4)

/-- src/aesni_x4.rs:34-41 `from`. -/
def from_quad (p0 : Aes.X86.Block × Aes.X86.Block × Aes.X86.Block × Aes.X86.Block) : Aes.NiX4.X4 :=
  let (a, b, c, d) := p0
  let p : IsaX86.M256i := _mm256_inserti128_si256 1#32 (_mm256_castsi128_si256 a.val) b.val
  let q : IsaX86.M256i := _mm256_inserti128_si256 1#32 (_mm256_castsi128_si256 c.val) d.val
  (⟨_mm512_inserti64x4 1#32 (_mm512_castsi256_si512 p) q⟩ : Aes.NiX4.X4)

/-- src/aesni_x4.rs:46-48 `from`. -/
def from_block (value : Aes.X86.Block) : Aes.NiX4.X4 :=
  (⟨_mm512_broadcast_i32x4 value.val⟩ : Aes.NiX4.X4)

/-- src/aesni_x4.rs:53-62 `from`. -/
def to_quad (value : Aes.NiX4.X4) : Aes.X86.Block × Aes.X86.Block × Aes.X86.Block × Aes.X86.Block :=
  ((⟨_mm512_extracti32x4_epi32 0#32 value.val⟩ : Aes.X86.Block), (⟨_mm512_extracti32x4_epi32 1#32 value.val⟩ : Aes.X86.Block), (⟨_mm512_extracti32x4_epi32 2#32 value.val⟩ : Aes.X86.Block), (⟨_mm512_extracti32x4_epi32 3#32 value.val⟩ : Aes.X86.Block))

/-- src/aesni_x4.rs:67-69 `from`. -/
def from_x2_pair (value : Aes.NiX2.X2 × Aes.NiX2.X2) : Aes.NiX4.X4 :=
  (⟨_mm512_inserti64x4 1#32 (_mm512_castsi256_si512 value.1.val) value.2.val⟩ : Aes.NiX4.X4)

/-- src/aesni_x4.rs:74-76 `from`. -/
def from_x2 (value : Aes.NiX2.X2) : Aes.NiX4.X4 :=
  (⟨_mm512_broadcast_i64x4 value.val⟩ : Aes.NiX4.X4)

/-- src/aesni_x4.rs:81-88 `from`. -/
def to_x2_pair (value : Aes.NiX4.X4) : Aes.NiX2.X2 × Aes.NiX2.X2 :=
  ((⟨_mm512_extracti64x4_epi64 0#32 value.val⟩ : Aes.NiX2.X2), (⟨_mm512_extracti64x4_epi64 1#32 value.val⟩ : Aes.NiX2.X2))

/-- src/aesni_x4.rs:95-97 `bitand`. -/
def bitand (self : Aes.NiX4.X4) (rhs : Aes.NiX4.X4) : Aes.NiX4.X4 :=
  (⟨_mm512_and_si512 self.val rhs.val⟩ : Aes.NiX4.X4)

/-- src/aesni_x4.rs:104-106 `bitor`. -/
def bitor (self : Aes.NiX4.X4) (rhs : Aes.NiX4.X4) : Aes.NiX4.X4 :=
  (⟨_mm512_or_si512 self.val rhs.val⟩ : Aes.NiX4.X4)

/-- src/aesni_x4.rs:113-115 `bitxor`. -/
def bitxor (self : Aes.NiX4.X4) (rhs : Aes.NiX4.X4) : Aes.NiX4.X4 :=
  (⟨_mm512_xor_si512 self.val rhs.val⟩ : Aes.NiX4.X4)

/-- src/aesni_x4.rs:122-124 `not`. -/
def not (self : Aes.NiX4.X4) : Aes.NiX4.X4 :=
  (⟨_mm512_xor_si512 self.val (_mm512_set1_epi64 (-1#64))⟩ : Aes.NiX4.X4)

/-- src/aesni_x4.rs:129-131 `new`. -/
def new (value : Vector U8 64) : Aes.NiX4.X4 :=
  transmute value

/-- src/aesni_x4.rs:134-137 `store_to`. -/
def store_to (self : Aes.NiX4.X4) (dst : List U8) : M (List U8) := do
  assert (decide (dst.length ≥ 64))
  let dst ← _mm512_storeu_si512 dst self.val
  pure dst

/-- src/aesni_x4.rs:140-142 `zero`. -/
def zero : Aes.NiX4.X4 :=
  (⟨_mm512_setzero_si512⟩ : Aes.NiX4.X4)

/-- src/aesni_x4.rs:146-148 `is_zero`. -/
def is_zero (self : Aes.NiX4.X4) : Bool :=
  (_mm512_test_epi64_mask self.val self.val) == 0#8

/-- src/aesni_x4.rs:152-154 `enc`. -/
def enc (self : Aes.NiX4.X4) (round_key : Aes.NiX4.X4) : Aes.NiX4.X4 :=
  (⟨_mm512_aesenc_epi128 self.val round_key.val⟩ : Aes.NiX4.X4)

/-- src/aesni_x4.rs:158-160 `dec`. -/
def dec (self : Aes.NiX4.X4) (round_key : Aes.NiX4.X4) : Aes.NiX4.X4 :=
  (⟨_mm512_aesdec_epi128 self.val round_key.val⟩ : Aes.NiX4.X4)

/-- src/aesni_x4.rs:164-166 `enc_last`. -/
def enc_last (self : Aes.NiX4.X4) (round_key : Aes.NiX4.X4) : Aes.NiX4.X4 :=
  (⟨_mm512_aesenclast_epi128 self.val round_key.val⟩ : Aes.NiX4.X4)

/-- src/aesni_x4.rs:170-172 `dec_last`. -/
def dec_last (self : Aes.NiX4.X4) (round_key : Aes.NiX4.X4) : Aes.NiX4.X4 :=
  (⟨_mm512_aesdeclast_epi128 self.val round_key.val⟩ : Aes.NiX4.X4)

/-- What src/aesni_x4.rs provides to the rest of the crate. -/
@[reducible] def vec : Aes.AesBlockX4 Aes.X86.Block Aes.NiX2.X2 Aes.NiX4.X4 where
  new := fun a0 => pure (new a0)
  from_bytes := from_bytes
  store_to := store_to
  zero := zero
  is_zero := is_zero
  eq := eq
  bitand := bitand
  bitor := bitor
  bitxor := bitxor
  not := not
  enc := enc
  dec := dec
  enc_last := enc_last
  dec_last := dec_last
  pre := none
  from_quad := from_quad
  to_quad := to_quad
  from_x2_pair := from_x2_pair
  to_x2_pair := to_x2_pair
  from_block := from_block
  from_x2 := from_x2

end RustSrc.NiX4
