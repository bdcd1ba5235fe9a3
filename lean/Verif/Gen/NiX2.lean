import Verif.Gen.Core
import Verif.Gen.Intrinsics
/-
src/aesni_x2.rs, function by function.
Generated by tools/rust2lean.py; do not edit.
-/
namespace RustSrc.NiX2
open Rust
open RustSrc.Core
variable [Cfg]

/-- src/aesni_x2.rs:9-12 `repr(transparent)` of `AesBlockX2`. -/
instance : Layout Aes.NiX2.X2 32 where
  bytes self := Layout.bytes self.val
  ofBytes b := ⟨Layout.ofBytes b⟩

/-- src/aesni_x2.rs:77-79 `bitxor`. -/
def bitxor (self : Aes.NiX2.X2) (rhs : Aes.NiX2.X2) : Aes.NiX2.X2 :=
  (⟨_mm256_xor_si256 self.val rhs.val⟩ : Aes.NiX2.X2)

/-- src/aesni_x2.rs:110-112 `is_zero`. -/
def is_zero (self : Aes.NiX2.X2) : Bool :=
  (_mm256_testz_si256 self.val self.val) == 1#32

/-- src/aesni_x2.rs:16-18 `eq`. -/
def eq (self : Aes.NiX2.X2) (other : Aes.NiX2.X2) : Bool :=
  is_zero (bitxor self other)

/-- src/aesni_x2.rs:25-27 `from`. -/
def from_bytes (value : Vector U8 32) : M Aes.NiX2.X2 := do
  pure (⟨(← _mm256_loadu_si256 value.toList)⟩ : Aes.NiX2.X2)

/-- src/aesni_x2.rs:32-34 `from`. -/
def from_pair (value : Aes.X86.Block × Aes.X86.Block) : Aes.NiX2.X2 :=
  (⟨_mm256_setr_m128i value.1.val value.2.val⟩ : Aes.NiX2.X2)

/-- src/aesni_x2.rs:39-41 `from`. -/
def from_block (value : Aes.X86.Block) : Aes.NiX2.X2 :=
  (⟨_mm256_broadcastsi128_si256 value.val⟩ : Aes.NiX2.X2)

/-- src/aesni_x2.rs:46-53 `from`. -/
def to_pair (value : Aes.NiX2.X2) : Aes.X86.Block × Aes.X86.Block :=
  ((⟨_mm256_extracti128_si256 0#32 value.val⟩ : Aes.X86.Block), (⟨_mm256_extracti128_si256 1#32 value.val⟩ : Aes.X86.Block))

/-- src/aesni_x2.rs:60-62 `bitand`. -/
def bitand (self : Aes.NiX2.X2) (rhs : Aes.NiX2.X2) : Aes.NiX2.X2 :=
  (⟨_mm256_and_si256 self.val rhs.val⟩ : Aes.NiX2.X2)

/-- src/aesni_x2.rs:68-70 `bitor`. -/
def bitor (self : Aes.NiX2.X2) (rhs : Aes.NiX2.X2) : Aes.NiX2.X2 :=
  (⟨_mm256_or_si256 self.val rhs.val⟩ : Aes.NiX2.X2)

/-- src/aesni_x2.rs:86-88 `not`. -/
def not (self : Aes.NiX2.X2) : Aes.NiX2.X2 :=
  (⟨_mm256_xor_si256 self.val (_mm256_set1_epi64x (-1#64))⟩ : Aes.NiX2.X2)

/-- src/aesni_x2.rs:93-95 `new`. -/
def new (value : Vector U8 32) : Aes.NiX2.X2 :=
  transmute value

/-- src/aesni_x2.rs:98-101 `store_to`. -/
def store_to (self : Aes.NiX2.X2) (dst : List U8) : M (List U8) := do
  assert (decide (dst.length ≥ 32))
  let dst ← _mm256_storeu_si256 dst self.val
  pure dst

/-- src/aesni_x2.rs:104-106 `zero`. -/
def zero : Aes.NiX2.X2 :=
  (⟨_mm256_setzero_si256⟩ : Aes.NiX2.X2)

/-- src/aesni_x2.rs:116-118 `enc`. -/
def enc (self : Aes.NiX2.X2) (round_key : Aes.NiX2.X2) : Aes.NiX2.X2 :=
  (⟨_mm256_aesenc_epi128 self.val round_key.val⟩ : Aes.NiX2.X2)

/-- src/aesni_x2.rs:122-124 `dec`. -/
def dec (self : Aes.NiX2.X2) (round_key : Aes.NiX2.X2) : Aes.NiX2.X2 :=
  (⟨_mm256_aesdec_epi128 self.val round_key.val⟩ : Aes.NiX2.X2)

/-- src/aesni_x2.rs:128-130 `enc_last`. -/
def enc_last (self : Aes.NiX2.X2) (round_key : Aes.NiX2.X2) : Aes.NiX2.X2 :=
  (⟨_mm256_aesenclast_epi128 self.val round_key.val⟩ : Aes.NiX2.X2)

/-- src/aesni_x2.rs:134-136 `dec_last`. -/
def dec_last (self : Aes.NiX2.X2) (round_key : Aes.NiX2.X2) : Aes.NiX2.X2 :=
  (⟨_mm256_aesdeclast_epi128 self.val round_key.val⟩ : Aes.NiX2.X2)

/-- What src/aesni_x2.rs provides to the rest of the crate. -/
@[reducible] def vec : Aes.AesBlockX2 Aes.X86.Block Aes.NiX2.X2 where
  new := fun a0 => pure (new a0)
  from_bytes := from_bytes
  store_to := store_to
  zero := zero
  is_zero := is_zero
  eq := eq
  bitand := bitand
  bitor := bitor
  bitxor := bitxor
  not := not
  enc := enc
  dec := dec
  enc_last := enc_last
  dec_last := dec_last
  pre := none
  from_pair := from_pair
  to_pair := to_pair
  from_block := from_block

end RustSrc.NiX2
