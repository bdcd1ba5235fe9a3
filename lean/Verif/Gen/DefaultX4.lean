import Verif.Gen.Core
import Verif.Gen.Intrinsics
/-
src/aesdefault_x4.rs, function by function.
Generated by tools/rust2lean.py; do not edit.
-/
namespace RustSrc.DefaultX4
open Rust
open RustSrc.Core
variable [Cfg] {B X2 : Type} [Aes.AesBlockX2 B X2]

/-- src/aesdefault_x4.rs:5-8 `#[derive(PartialEq)]`. -/
def eq (self other : (Aes.DefaultX4.X4 X2)) : Bool :=
  Aes.AesVec.eq self.f0 other.f0 && Aes.AesVec.eq self.f1 other.f1

/-- src/aesdefault_x4.rs:99-104 `new`. -/
def new (value : Vector U8 64) : M (Aes.DefaultX4.X4 X2) := do
  pure (⟨(← Aes.AesVec.new (← array_from_slice 32 value.toList 0)), (← Aes.AesVec.new (← array_from_slice 32 value.toList 32))⟩ : (Aes.DefaultX4.X4 X2))

/-- src/aesdefault_x4.rs:12-14 `from`. -/
def from_bytes (value : Vector U8 64) : M (Aes.DefaultX4.X4 X2) :=
  new value

/-- src/aesdefault_x4.rs:19-21 `from`. -/
def from_quad (value : B × B × B × B) : (Aes.DefaultX4.X4 X2) :=
  (⟨(Aes.AesBlockX2.from_pair (value.1, value.2.1)), (Aes.AesBlockX2.from_pair (value.2.2.1, value.2.2.2))⟩ : (Aes.DefaultX4.X4 X2))

/-- src/aesdefault_x4.rs:26-28 `from`. -/
def from_x2_pair (p0 : X2 × X2) : (Aes.DefaultX4.X4 X2) :=
  let (hi, lo) := p0
  (⟨hi, lo⟩ : (Aes.DefaultX4.X4 X2))

/-- src/aesdefault_x4.rs:33-35 `from`. -/
def from_block (value : B) : (Aes.DefaultX4.X4 X2) :=
  (⟨Aes.AesBlockX2.from_block value, Aes.AesBlockX2.from_block value⟩ : (Aes.DefaultX4.X4 X2))

/-- src/aesdefault_x4.rs:40-42 `from`. -/
def from_x2 (value : X2) : (Aes.DefaultX4.X4 X2) :=
  (⟨value, value⟩ : (Aes.DefaultX4.X4 X2))

/-- src/aesdefault_x4.rs:47-51 `from`. -/
def to_quad (value : (Aes.DefaultX4.X4 X2)) : B × B × B × B :=
  let (a, b) := Aes.AesBlockX2.to_pair value.f0
  let (c, d) := Aes.AesBlockX2.to_pair value.f1
  (a, b, c, d)

/-- src/aesdefault_x4.rs:56-58 `from`. -/
def to_x2_pair (value : (Aes.DefaultX4.X4 X2)) : X2 × X2 :=
  (value.f0, value.f1)

/-- src/aesdefault_x4.rs:65-67 `bitand`. -/
def bitand (self : (Aes.DefaultX4.X4 X2)) (rhs : (Aes.DefaultX4.X4 X2)) : (Aes.DefaultX4.X4 X2) :=
  (⟨Aes.AesVec.bitand self.f0 rhs.f0, Aes.AesVec.bitand self.f1 rhs.f1⟩ : (Aes.DefaultX4.X4 X2))

/-- src/aesdefault_x4.rs:74-76 `bitor`. -/
def bitor (self : (Aes.DefaultX4.X4 X2)) (rhs : (Aes.DefaultX4.X4 X2)) : (Aes.DefaultX4.X4 X2) :=
  (⟨Aes.AesVec.bitor self.f0 rhs.f0, Aes.AesVec.bitor self.f1 rhs.f1⟩ : (Aes.DefaultX4.X4 X2))

/-- src/aesdefault_x4.rs:83-85 `bitxor`. -/
def bitxor (self : (Aes.DefaultX4.X4 X2)) (rhs : (Aes.DefaultX4.X4 X2)) : (Aes.DefaultX4.X4 X2) :=
  (⟨Aes.AesVec.bitxor self.f0 rhs.f0, Aes.AesVec.bitxor self.f1 rhs.f1⟩ : (Aes.DefaultX4.X4 X2))

/-- src/aesdefault_x4.rs:92-94 `not`. -/
def not (self : (Aes.DefaultX4.X4 X2)) : (Aes.DefaultX4.X4 X2) :=
  (⟨Aes.AesVec.not self.f0, Aes.AesVec.not self.f1⟩ : (Aes.DefaultX4.X4 X2))

/-- src/aesdefault_x4.rs:107-111 `store_to`. -/
def store_to (self : (Aes.DefaultX4.X4 X2)) (dst : List U8) : M (List U8) := do
  assert (decide (dst.length ≥ 64))
  let dst ← onTo dst 32 (fun s => Aes.AesVec.store_to self.f0 s)
  let dst ← onFrom dst 32 (fun s => Aes.AesVec.store_to self.f1 s)
  pure dst

/-- src/aesdefault_x4.rs:114-116 `zero`. -/
def zero : (Aes.DefaultX4.X4 X2) :=
  (⟨Aes.AesVec.zero, Aes.AesVec.zero⟩ : (Aes.DefaultX4.X4 X2))

/-- src/aesdefault_x4.rs:120-122 `is_zero`. -/
def is_zero (self : (Aes.DefaultX4.X4 X2)) : Bool :=
  and (Aes.AesVec.is_zero self.f0) (Aes.AesVec.is_zero self.f1)

/-- src/aesdefault_x4.rs:126-128 `enc`. -/
def enc (self : (Aes.DefaultX4.X4 X2)) (round_key : (Aes.DefaultX4.X4 X2)) : (Aes.DefaultX4.X4 X2) :=
  (⟨Aes.AesVec.enc self.f0 round_key.f0, Aes.AesVec.enc self.f1 round_key.f1⟩ : (Aes.DefaultX4.X4 X2))

/-- src/aesdefault_x4.rs:132-134 `dec`. -/
def dec (self : (Aes.DefaultX4.X4 X2)) (round_key : (Aes.DefaultX4.X4 X2)) : (Aes.DefaultX4.X4 X2) :=
  (⟨Aes.AesVec.dec self.f0 round_key.f0, Aes.AesVec.dec self.f1 round_key.f1⟩ : (Aes.DefaultX4.X4 X2))

/-- src/aesdefault_x4.rs:138-140 `enc_last`. -/
def enc_last (self : (Aes.DefaultX4.X4 X2)) (round_key : (Aes.DefaultX4.X4 X2)) : (Aes.DefaultX4.X4 X2) :=
  (⟨Aes.AesVec.enc_last self.f0 round_key.f0, Aes.AesVec.enc_last self.f1 round_key.f1⟩ : (Aes.DefaultX4.X4 X2))

/-- src/aesdefault_x4.rs:144-146 `dec_last`. -/
def dec_last (self : (Aes.DefaultX4.X4 X2)) (round_key : (Aes.DefaultX4.X4 X2)) : (Aes.DefaultX4.X4 X2) :=
  (⟨Aes.AesVec.dec_last self.f0 round_key.f0, Aes.AesVec.dec_last self.f1 round_key.f1⟩ : (Aes.DefaultX4.X4 X2))

/-- What src/aesdefault_x4.rs provides to the rest of the crate. -/
@[reducible] def vec : Aes.AesBlockX4 B X2 (Aes.DefaultX4.X4 X2) where
  new := new
  from_bytes := from_bytes
  store_to := store_to
  zero := zero
  is_zero := is_zero
  eq := eq
  bitand := bitand
  bitor := bitor
  bitxor := bitxor
  not := not
  enc := enc
  dec := dec
  enc_last := enc_last
  dec_last := dec_last
  pre := none
  from_quad := from_quad
  to_quad := to_quad
  from_x2_pair := from_x2_pair
  to_x2_pair := to_x2_pair
  from_block := from_block
  from_x2 := from_x2

end RustSrc.DefaultX4
