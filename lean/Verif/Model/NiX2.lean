import Verif.Model.X86
/-
Model of src/aesni_x2.rs (VAES on 256-bit registers).
-/
namespace Aes.NiX2
open Rust IsaX86

/-- src/aesni_x2.rs:9-12 `struct AesBlockX2(__m256i)`. -/
structure X2 where
  val : M256i
deriving DecidableEq, Repr

/-- src/aesni_x2.rs:23-28 `From<[u8; 32]>`. -/
def from_bytes (value : Vector U8 32) : M X2 := do pure ⟨← loadu 32 value.toList⟩
/-- src/aesni_x2.rs:30-35 `From<(AesBlock, AesBlock)>`. -/
def from_pair (value : X86.Block × X86.Block) : X2 := ⟨setr_m128i value.1.val value.2.val⟩
/-- src/aesni_x2.rs:37-42 `From<AesBlock>`. -/
def from_block (value : X86.Block) : X2 := ⟨broadcastsi128_si256 value.val⟩
/-- src/aesni_x2.rs:44-54 `From<AesBlockX2> for (AesBlock, AesBlock)`. -/
def to_pair (value : X2) : X86.Block × X86.Block :=
  (⟨extracti128_si256 0 value.val⟩, ⟨extracti128_si256 1 value.val⟩)
/-- src/aesni_x2.rs:56-63 `BitAnd`. -/
def bitand (self rhs : X2) : X2 := ⟨and self.val rhs.val⟩
/-- src/aesni_x2.rs:64-71 `BitOr`. -/
def bitor (self rhs : X2) : X2 := ⟨or self.val rhs.val⟩
/-- src/aesni_x2.rs:73-80 `BitXor`. -/
def bitxor (self rhs : X2) : X2 := ⟨xor self.val rhs.val⟩
/-- src/aesni_x2.rs:82-89 `Not`. -/
def not (self : X2) : X2 := ⟨xor self.val set1_minus1⟩
/-- src/aesni_x2.rs:93-95 `new`: transmute. -/
def new (value : Vector U8 32) : M X2 := .ok ⟨value⟩
/-- src/aesni_x2.rs:98-101 `store_to`. -/
def store_to (self : X2) (dst : List U8) : M (List U8) := do
  assert (dst.length ≥ 32)
  storeu dst self.val
/-- src/aesni_x2.rs:104-106 `zero`. -/
def zero : X2 := ⟨setzero⟩
/-- src/aesni_x2.rs:110-112 `is_zero`. -/
def is_zero (self : X2) : Bool := testz self.val self.val == 1
/-- src/aesni_x2.rs:14-19 `PartialEq`. -/
def eq (self other : X2) : Bool := is_zero (bitxor self other)
/-- src/aesni_x2.rs:116-118 `enc`. -/
def enc (self round_key : X2) : X2 := ⟨lanewise2 aesenc self.val round_key.val⟩
/-- src/aesni_x2.rs:122-124 `dec`. -/
def dec (self round_key : X2) : X2 := ⟨lanewise2 aesdec self.val round_key.val⟩
/-- src/aesni_x2.rs:128-130 `enc_last`. -/
def enc_last (self round_key : X2) : X2 := ⟨lanewise2 aesenclast self.val round_key.val⟩
/-- src/aesni_x2.rs:134-136 `dec_last`. -/
def dec_last (self round_key : X2) : X2 := ⟨lanewise2 aesdeclast self.val round_key.val⟩

/-- The API of the module. -/
instance : AesBlockX2 X86.Block X2 where
  new := new
  from_bytes := from_bytes
  store_to := store_to
  zero := zero
  is_zero := is_zero
  eq := eq
  bitand := bitand
  bitor := bitor
  bitxor := bitxor
  not := not
  enc := enc
  dec := dec
  enc_last := enc_last
  dec_last := dec_last
  pre := none
  from_pair := from_pair
  to_pair := to_pair
  from_block := from_block

end Aes.NiX2
