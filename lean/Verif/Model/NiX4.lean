import Verif.Model.NiX2
/-
Model of src/aesni_x4.rs (VAES on 512-bit registers, AVX512F).
-/
namespace Aes.NiX4
open Rust IsaX86

/-- src/aesni_x4.rs:10-13 `struct AesBlockX4(__m512i)`. -/
structure X4 where
  val : M512i
deriving DecidableEq, Repr

/-- src/aesni_x4.rs:15-20 `PartialEq`. -/
def eq (self other : X4) : Bool := cmpeq_epi64_mask self.val other.val == 0b11111111#8
/-- src/aesni_x4.rs:24-29 `From<[u8; 64]>`. -/
def from_bytes (value : Vector U8 64) : M X4 := do pure ⟨← loadu 64 value.toList⟩
/-- src/aesni_x4.rs:31-42 `From<(AesBlock, AesBlock, AesBlock, AesBlock)>`. -/
def from_quad (value : X86.Block × X86.Block × X86.Block × X86.Block) : X4 :=
  let (a, b, c, d) := value
  let p := inserti128_si256_1 (castsi128_si256 a.val) b.val
  let q := inserti128_si256_1 (castsi128_si256 c.val) d.val
  ⟨inserti64x4_1 (castsi256_si512 p) q⟩
/-- src/aesni_x4.rs:44-49 `From<AesBlock>`. -/
def from_block (value : X86.Block) : X4 := ⟨broadcast_i32x4 value.val⟩
/-- src/aesni_x4.rs:51-63 `From<AesBlockX4> for (AesBlock, AesBlock, AesBlock, AesBlock)`. -/
def to_quad (value : X4) : X86.Block × X86.Block × X86.Block × X86.Block :=
  (⟨extracti32x4_epi32 0 value.val⟩, ⟨extracti32x4_epi32 1 value.val⟩,
   ⟨extracti32x4_epi32 2 value.val⟩, ⟨extracti32x4_epi32 3 value.val⟩)
/-- src/aesni_x4.rs:65-70 `From<(AesBlockX2, AesBlockX2)>`. -/
def from_x2_pair (value : NiX2.X2 × NiX2.X2) : X4 :=
  ⟨inserti64x4_1 (castsi256_si512 value.1.val) value.2.val⟩
/-- src/aesni_x4.rs:72-77 `From<AesBlockX2>`. -/
def from_x2 (value : NiX2.X2) : X4 := ⟨broadcast_i64x4 value.val⟩
/-- src/aesni_x4.rs:79-89 `From<AesBlockX4> for (AesBlockX2, AesBlockX2)`. -/
def to_x2_pair (value : X4) : NiX2.X2 × NiX2.X2 :=
  (⟨extracti64x4_epi64 0 value.val⟩, ⟨extracti64x4_epi64 1 value.val⟩)
/-- src/aesni_x4.rs:91-98 `BitAnd`. -/
def bitand (self rhs : X4) : X4 := ⟨and self.val rhs.val⟩
/-- src/aesni_x4.rs:100-107 `BitOr`. -/
def bitor (self rhs : X4) : X4 := ⟨or self.val rhs.val⟩
/-- src/aesni_x4.rs:109-116 `BitXor`. -/
def bitxor (self rhs : X4) : X4 := ⟨xor self.val rhs.val⟩
/-- src/aesni_x4.rs:118-125 `Not`. -/
def not (self : X4) : X4 := ⟨xor self.val set1_minus1⟩
/-- src/aesni_x4.rs:129-131 `new`: transmute. -/
def new (value : Vector U8 64) : M X4 := .ok ⟨value⟩
/-- src/aesni_x4.rs:134-137 `store_to`. -/
def store_to (self : X4) (dst : List U8) : M (List U8) := do
  assert (dst.length ≥ 64)
  storeu dst self.val
/-- src/aesni_x4.rs:140-142 `zero`. -/
def zero : X4 := ⟨setzero⟩
/-- src/aesni_x4.rs:146-148 `is_zero`. -/
def is_zero (self : X4) : Bool := test_epi64_mask self.val self.val == 0#8
/-- src/aesni_x4.rs:152-154 `enc`. -/
def enc (self round_key : X4) : X4 := ⟨lanewise4 aesenc self.val round_key.val⟩
/-- src/aesni_x4.rs:158-160 `dec`. -/
def dec (self round_key : X4) : X4 := ⟨lanewise4 aesdec self.val round_key.val⟩
/-- src/aesni_x4.rs:164-166 `enc_last`. -/
def enc_last (self round_key : X4) : X4 := ⟨lanewise4 aesenclast self.val round_key.val⟩
/-- src/aesni_x4.rs:170-172 `dec_last`. -/
def dec_last (self round_key : X4) : X4 := ⟨lanewise4 aesdeclast self.val round_key.val⟩

/-- The API of the module. -/
instance : AesBlockX4 X86.Block NiX2.X2 X4 where
  new := new
  from_bytes := from_bytes
  store_to := store_to
  zero := zero
  is_zero := is_zero
  eq := eq
  bitand := bitand
  bitor := bitor
  bitxor := bitxor
  not := not
  enc := enc
  dec := dec
  enc_last := enc_last
  dec_last := dec_last
  pre := none
  from_quad := from_quad
  to_quad := to_quad
  from_x2_pair := from_x2_pair
  to_x2_pair := to_x2_pair
  from_block := from_block
  from_x2 := from_x2

end Aes.NiX4
