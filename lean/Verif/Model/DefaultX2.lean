import Verif.Model.Lib
/-
Model of src/aesdefault_x2.rs: `AesBlockX2` as a pair of `AesBlock`s, for any backend `B`.
-/
namespace Aes.DefaultX2
open Rust

/-- src/aesdefault_x2.rs:5-8 `struct AesBlockX2(AesBlock, AesBlock)`. -/
structure X2 (B : Type) where
  f0 : B
  f1 : B
deriving DecidableEq, Repr

variable {B : Type} [AesBlock B]

/-- src/aesdefault_x2.rs:17-22 `From<(AesBlock, AesBlock)>`. -/
def from_pair (p : B × B) : X2 B := ⟨p.1, p.2⟩
/-- src/aesdefault_x2.rs:24-29 `From<AesBlock>`. -/
def from_block (value : B) : X2 B := ⟨value, value⟩
/-- src/aesdefault_x2.rs:31-36 `From<AesBlockX2> for (AesBlock, AesBlock)`. -/
def to_pair (value : X2 B) : B × B := (value.f0, value.f1)
/-- src/aesdefault_x2.rs:5 derived `PartialEq`: field by field, with the `PartialEq` of `AesBlock`. -/
def eq (self other : X2 B) : Bool := AesVec.eq self.f0 other.f0 && AesVec.eq self.f1 other.f1
/-- src/aesdefault_x2.rs:38-45 `BitAnd`. -/
def bitand (self rhs : X2 B) : X2 B := ⟨AesVec.bitand self.f0 rhs.f0, AesVec.bitand self.f1 rhs.f1⟩
/-- src/aesdefault_x2.rs:47-54 `BitOr`. -/
def bitor (self rhs : X2 B) : X2 B := ⟨AesVec.bitor self.f0 rhs.f0, AesVec.bitor self.f1 rhs.f1⟩
/-- src/aesdefault_x2.rs:56-63 `BitXor`. -/
def bitxor (self rhs : X2 B) : X2 B := ⟨AesVec.bitxor self.f0 rhs.f0, AesVec.bitxor self.f1 rhs.f1⟩
/-- src/aesdefault_x2.rs:65-72 `Not`. -/
def not (self : X2 B) : X2 B := ⟨AesVec.not self.f0, AesVec.not self.f1⟩
/-- src/aesdefault_x2.rs:76-81 `new`. -/
def new (value : Vector U8 32) : M (X2 B) := do
  pure ⟨← AesVec.new (← array_from_slice 16 value.toList 0),
    ← AesVec.new (← array_from_slice 16 value.toList 16)⟩
/-- src/aesdefault_x2.rs:10-15 `From<[u8; 32]>`. -/
def from_bytes (value : Vector U8 32) : M (X2 B) := new value
/-- src/aesdefault_x2.rs:84-88 `store_to`. -/
def store_to (self : X2 B) (dst : List U8) : M (List U8) := do
  assert (dst.length ≥ 32)
  let dst ← onTo dst 16 fun s => AesVec.store_to self.f0 s
  let dst ← onFrom dst 16 fun s => AesVec.store_to self.f1 s
  pure dst
/-- src/aesdefault_x2.rs:91-93 `zero`. -/
def zero : X2 B := ⟨AesVec.zero, AesVec.zero⟩
/-- src/aesdefault_x2.rs:97-99 `is_zero` (`&` on `bool` does not short-circuit). -/
def is_zero (self : X2 B) : Bool := and (AesVec.is_zero self.f0) (AesVec.is_zero self.f1)
/-- src/aesdefault_x2.rs:103-105 `enc`. -/
def enc (self round_key : X2 B) : X2 B :=
  ⟨AesVec.enc self.f0 round_key.f0, AesVec.enc self.f1 round_key.f1⟩
/-- src/aesdefault_x2.rs:109-111 `dec`. -/
def dec (self round_key : X2 B) : X2 B :=
  ⟨AesVec.dec self.f0 round_key.f0, AesVec.dec self.f1 round_key.f1⟩
/-- src/aesdefault_x2.rs:115-117 `enc_last`. -/
def enc_last (self round_key : X2 B) : X2 B :=
  ⟨AesVec.enc_last self.f0 round_key.f0, AesVec.enc_last self.f1 round_key.f1⟩
/-- src/aesdefault_x2.rs:121-123 `dec_last`. -/
def dec_last (self round_key : X2 B) : X2 B :=
  ⟨AesVec.dec_last self.f0 round_key.f0, AesVec.dec_last self.f1 round_key.f1⟩

/-- The API of the module; `pre_enc`/`pre_dec` come from `impl_pre_encdec!(AesBlockX2, AesBlockX4)`,
src/lib.rs:348-368. -/
instance : AesBlockX2 B (X2 B) where
  new := new
  from_bytes := from_bytes
  store_to := store_to
  zero := zero
  is_zero := is_zero
  eq := eq
  bitand := bitand
  bitor := bitor
  bitxor := bitxor
  not := not
  enc := enc
  dec := dec
  enc_last := enc_last
  dec_last := dec_last
  pre := (AesVec.pre (T := B)).map (impl_pre_encdec to_pair from_pair)
  from_pair := from_pair
  to_pair := to_pair
  from_block := from_block

end Aes.DefaultX2
