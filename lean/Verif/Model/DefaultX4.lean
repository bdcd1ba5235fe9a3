import Verif.Model.Lib
/-
Model of src/aesdefault_x4.rs: `AesBlockX4` as a pair of `AesBlockX2`s, whichever `AesBlockX2` is
(the pair of blocks, or the VAES one).
-/
namespace Aes.DefaultX4
open Rust

/-- src/aesdefault_x4.rs:5-8 `struct AesBlockX4(AesBlockX2, AesBlockX2)`. -/
structure X4 (X2 : Type) where
  f0 : X2
  f1 : X2
deriving DecidableEq, Repr

variable {B X2 : Type} [AesBlockX2 B X2]
open AesBlockX2 (from_pair to_pair)

/-- src/aesdefault_x4.rs:17-22 `From<(AesBlock, AesBlock, AesBlock, AesBlock)>`. -/
def from_quad (value : B × B × B × B) : X4 X2 :=
  ⟨from_pair (value.1, value.2.1), from_pair (value.2.2.1, value.2.2.2)⟩
/-- src/aesdefault_x4.rs:24-29 `From<(AesBlockX2, AesBlockX2)>`. -/
def from_x2_pair (p : X2 × X2) : X4 X2 := ⟨p.1, p.2⟩
/-- src/aesdefault_x4.rs:31-36 `From<AesBlock>`. -/
def from_block (value : B) : X4 X2 := ⟨AesBlockX2.from_block value, AesBlockX2.from_block value⟩
/-- src/aesdefault_x4.rs:38-43 `From<AesBlockX2>`. -/
def from_x2 (value : X2) : X4 X2 := ⟨value, value⟩
/-- src/aesdefault_x4.rs:45-52 `From<AesBlockX4> for (AesBlock, AesBlock, AesBlock, AesBlock)`. -/
def to_quad (value : X4 X2) : B × B × B × B :=
  let (a, b) := to_pair value.f0
  let (c, d) := to_pair value.f1
  (a, b, c, d)
/-- src/aesdefault_x4.rs:54-59 `From<AesBlockX4> for (AesBlockX2, AesBlockX2)`. -/
def to_x2_pair (value : X4 X2) : X2 × X2 := (value.f0, value.f1)
/-- src/aesdefault_x4.rs:5 derived `PartialEq`. -/
def eq (self other : X4 X2) : Bool := AesVec.eq self.f0 other.f0 && AesVec.eq self.f1 other.f1
/-- src/aesdefault_x4.rs:61-68 `BitAnd`. -/
def bitand (self rhs : X4 X2) : X4 X2 := ⟨AesVec.bitand self.f0 rhs.f0, AesVec.bitand self.f1 rhs.f1⟩
/-- src/aesdefault_x4.rs:70-77 `BitOr`. -/
def bitor (self rhs : X4 X2) : X4 X2 := ⟨AesVec.bitor self.f0 rhs.f0, AesVec.bitor self.f1 rhs.f1⟩
/-- src/aesdefault_x4.rs:79-86 `BitXor`. -/
def bitxor (self rhs : X4 X2) : X4 X2 := ⟨AesVec.bitxor self.f0 rhs.f0, AesVec.bitxor self.f1 rhs.f1⟩
/-- src/aesdefault_x4.rs:88-95 `Not`. -/
def not (self : X4 X2) : X4 X2 := ⟨AesVec.not self.f0, AesVec.not self.f1⟩
/-- src/aesdefault_x4.rs:99-104 `new`. -/
def new (value : Vector U8 64) : M (X4 X2) := do
  pure ⟨← AesVec.new (← array_from_slice 32 value.toList 0),
    ← AesVec.new (← array_from_slice 32 value.toList 32)⟩
/-- src/aesdefault_x4.rs:10-15 `From<[u8; 64]>`. -/
def from_bytes (value : Vector U8 64) : M (X4 X2) := new value
/-- src/aesdefault_x4.rs:107-111 `store_to`. -/
def store_to (self : X4 X2) (dst : List U8) : M (List U8) := do
  assert (dst.length ≥ 64)
  let dst ← onTo dst 32 fun s => AesVec.store_to self.f0 s
  let dst ← onFrom dst 32 fun s => AesVec.store_to self.f1 s
  pure dst
/-- src/aesdefault_x4.rs:114-116 `zero`. -/
def zero : X4 X2 := ⟨AesVec.zero, AesVec.zero⟩
/-- src/aesdefault_x4.rs:120-122 `is_zero`. -/
def is_zero (self : X4 X2) : Bool := and (AesVec.is_zero self.f0) (AesVec.is_zero self.f1)
/-- src/aesdefault_x4.rs:126-128 `enc`. -/
def enc (self round_key : X4 X2) : X4 X2 :=
  ⟨AesVec.enc self.f0 round_key.f0, AesVec.enc self.f1 round_key.f1⟩
/-- src/aesdefault_x4.rs:132-134 `dec`. -/
def dec (self round_key : X4 X2) : X4 X2 :=
  ⟨AesVec.dec self.f0 round_key.f0, AesVec.dec self.f1 round_key.f1⟩
/-- src/aesdefault_x4.rs:138-140 `enc_last`. -/
def enc_last (self round_key : X4 X2) : X4 X2 :=
  ⟨AesVec.enc_last self.f0 round_key.f0, AesVec.enc_last self.f1 round_key.f1⟩
/-- src/aesdefault_x4.rs:144-146 `dec_last`. -/
def dec_last (self round_key : X4 X2) : X4 X2 :=
  ⟨AesVec.dec_last self.f0 round_key.f0, AesVec.dec_last self.f1 round_key.f1⟩

/-- The API of the module; `pre_enc`/`pre_dec` come from `impl_pre_encdec!(AesBlockX2, AesBlockX4)`,
src/lib.rs:348-368. -/
instance : AesBlockX4 B X2 (X4 X2) where
  new := new
  from_bytes := from_bytes
  store_to := store_to
  zero := zero
  is_zero := is_zero
  eq := eq
  bitand := bitand
  bitor := bitor
  bitxor := bitxor
  not := not
  enc := enc
  dec := dec
  enc_last := enc_last
  dec_last := dec_last
  pre := (AesVec.pre (T := X2)).map (impl_pre_encdec to_x2_pair from_x2_pair)
  from_quad := from_quad
  to_quad := to_quad
  from_x2_pair := from_x2_pair
  to_x2_pair := to_x2_pair
  from_block := from_block
  from_x2 := from_x2

end Aes.DefaultX4
