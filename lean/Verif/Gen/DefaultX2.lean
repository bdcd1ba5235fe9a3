import Verif.Gen.Core
import Verif.Gen.Intrinsics
/-
src/aesdefault_x2.rs, function by function.
Generated by tools/rust2lean.py; do not edit.
-/
namespace RustSrc.DefaultX2
open Rust
open RustSrc.Core
variable [Cfg] {B : Type} [Aes.AesBlock B]

/-- src/aesdefault_x2.rs:5-8 `#[derive(PartialEq)]`. -/
def eq (self other : (Aes.DefaultX2.X2 B)) : Bool :=
  Aes.AesVec.eq self.f0 other.f0 && Aes.AesVec.eq self.f1 other.f1

/-- src/aesdefault_x2.rs:76-81 `new`. -/
def new (value : Vector U8 32) : M (Aes.DefaultX2.X2 B) := do
  pure (⟨(← Aes.AesVec.new (← array_from_slice 16 value.toList 0)), (← Aes.AesVec.new (← array_from_slice 16 value.toList 16))⟩ : (Aes.DefaultX2.X2 B))

/-- src/aesdefault_x2.rs:12-14 `from`. -/
def from_bytes (value : Vector U8 32) : M (Aes.DefaultX2.X2 B) :=
  new value

/-- src/aesdefault_x2.rs:19-21 `from`. -/
def from_pair (p0 : B × B) : (Aes.DefaultX2.X2 B) :=
  let (hi, lo) := p0
  (⟨hi, lo⟩ : (Aes.DefaultX2.X2 B))

/-- src/aesdefault_x2.rs:26-28 `from`. -/
def from_block (value : B) : (Aes.DefaultX2.X2 B) :=
  (⟨value, value⟩ : (Aes.DefaultX2.X2 B))

/-- src/aesdefault_x2.rs:33-35 `from`. -/
def to_pair (value : (Aes.DefaultX2.X2 B)) : B × B :=
  (value.f0, value.f1)

/-- src/aesdefault_x2.rs:42-44 `bitand`. -/
def bitand (self : (Aes.DefaultX2.X2 B)) (rhs : (Aes.DefaultX2.X2 B)) : (Aes.DefaultX2.X2 B) :=
  (⟨Aes.AesVec.bitand self.f0 rhs.f0, Aes.AesVec.bitand self.f1 rhs.f1⟩ : (Aes.DefaultX2.X2 B))

/-- src/aesdefault_x2.rs:51-53 `bitor`. -/
def bitor (self : (Aes.DefaultX2.X2 B)) (rhs : (Aes.DefaultX2.X2 B)) : (Aes.DefaultX2.X2 B) :=
  (⟨Aes.AesVec.bitor self.f0 rhs.f0, Aes.AesVec.bitor self.f1 rhs.f1⟩ : (Aes.DefaultX2.X2 B))

/-- src/aesdefault_x2.rs:60-62 `bitxor`. -/
def bitxor (self : (Aes.DefaultX2.X2 B)) (rhs : (Aes.DefaultX2.X2 B)) : (Aes.DefaultX2.X2 B) :=
  (⟨Aes.AesVec.bitxor self.f0 rhs.f0, Aes.AesVec.bitxor self.f1 rhs.f1⟩ : (Aes.DefaultX2.X2 B))

/-- src/aesdefault_x2.rs:69-71 `not`. -/
def not (self : (Aes.DefaultX2.X2 B)) : (Aes.DefaultX2.X2 B) :=
  (⟨Aes.AesVec.not self.f0, Aes.AesVec.not self.f1⟩ : (Aes.DefaultX2.X2 B))

/-- src/aesdefault_x2.rs:84-88 `store_to`. -/
def store_to (self : (Aes.DefaultX2.X2 B)) (dst : List U8) : M (List U8) := do
  assert (decide (dst.length ≥ 32))
  let dst ← onTo dst 16 (fun s => Aes.AesVec.store_to self.f0 s)
  let dst ← onFrom dst 16 (fun s => Aes.AesVec.store_to self.f1 s)
  pure dst

/-- src/aesdefault_x2.rs:91-93 `zero`. -/
def zero : (Aes.DefaultX2.X2 B) :=
  (⟨Aes.AesVec.zero, Aes.AesVec.zero⟩ : (Aes.DefaultX2.X2 B))

/-- src/aesdefault_x2.rs:97-99 `is_zero`. -/
def is_zero (self : (Aes.DefaultX2.X2 B)) : Bool :=
  and (Aes.AesVec.is_zero self.f0) (Aes.AesVec.is_zero self.f1)

/-- src/aesdefault_x2.rs:103-105 `enc`. -/
def enc (self : (Aes.DefaultX2.X2 B)) (round_key : (Aes.DefaultX2.X2 B)) : (Aes.DefaultX2.X2 B) :=
  (⟨Aes.AesVec.enc self.f0 round_key.f0, Aes.AesVec.enc self.f1 round_key.f1⟩ : (Aes.DefaultX2.X2 B))

/-- src/aesdefault_x2.rs:109-111 `dec`. -/
def dec (self : (Aes.DefaultX2.X2 B)) (round_key : (Aes.DefaultX2.X2 B)) : (Aes.DefaultX2.X2 B) :=
  (⟨Aes.AesVec.dec self.f0 round_key.f0, Aes.AesVec.dec self.f1 round_key.f1⟩ : (Aes.DefaultX2.X2 B))

/-- src/aesdefault_x2.rs:115-117 `enc_last`. -/
def enc_last (self : (Aes.DefaultX2.X2 B)) (round_key : (Aes.DefaultX2.X2 B)) : (Aes.DefaultX2.X2 B) :=
  (⟨Aes.AesVec.enc_last self.f0 round_key.f0, Aes.AesVec.enc_last self.f1 round_key.f1⟩ : (Aes.DefaultX2.X2 B))

/-- src/aesdefault_x2.rs:121-123 `dec_last`. -/
def dec_last (self : (Aes.DefaultX2.X2 B)) (round_key : (Aes.DefaultX2.X2 B)) : (Aes.DefaultX2.X2 B) :=
  (⟨Aes.AesVec.dec_last self.f0 round_key.f0, Aes.AesVec.dec_last self.f1 round_key.f1⟩ : (Aes.DefaultX2.X2 B))

/-- What src/aesdefault_x2.rs provides to the rest of the crate. -/
@[reducible] def vec : Aes.AesBlockX2 B (Aes.DefaultX2.X2 B) where
  new := new
  from_bytes := from_bytes
  store_to := store_to
  zero := zero
  is_zero := is_zero
  eq := eq
  bitand := bitand
  bitor := bitor
  bitxor := bitxor
  not := not
  enc := enc
  dec := dec
  enc_last := enc_last
  dec_last := dec_last
  pre := none
  from_pair := from_pair
  to_pair := to_pair
  from_block := from_block

end RustSrc.DefaultX2
