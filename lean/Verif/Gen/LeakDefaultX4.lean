import Verif.Gen.LeakCore
import Verif.Gen.LeakIntrinsics
import Verif.Gen.DefaultX4
/-
src/aesdefault_x4.rs, function by function, with the trace of every call.
Generated by tools/rust2lean.py; do not edit.
-/
namespace RustSrc.Leak.DefaultX4
open Rust
open RustSrc.Leak.Core
variable [Cfg] {X2 : Type} [Aes.Leak.LVec X2 32]

/-- src/aesdefault_x4.rs:5-8 `#[derive(PartialEq)]`. -/
def eq (self other : (Aes.DefaultX4.X4 X2)) : Aes.Leak.L Bool :=
  Aes.Leak.andAlso (Aes.Leak.LVec.eq self.f0 other.f0) (Aes.Leak.LVec.eq self.f1 other.f1)

/-- src/aesdefault_x4.rs:99-104 `new`. -/
def new (value : Vector U8 64) : Aes.Leak.L (Aes.DefaultX4.X4 X2) := do
  pure (⟨(← Aes.Leak.LVec.new (← array_from_slice 32 value.toList 0)), (← Aes.Leak.LVec.new (← array_from_slice 32 value.toList 32))⟩ : (Aes.DefaultX4.X4 X2))

/-- src/aesdefault_x4.rs:12-14 `from`. -/
def from_bytes (value : Vector U8 64) : Aes.Leak.L (Aes.DefaultX4.X4 X2) :=
  new value

/-- src/aesdefault_x4.rs:65-67 `bitand`. -/
def bitand (self : (Aes.DefaultX4.X4 X2)) (rhs : (Aes.DefaultX4.X4 X2)) : Aes.Leak.L (Aes.DefaultX4.X4 X2) := do
  pure (⟨(← Aes.Leak.LVec.bitand self.f0 rhs.f0), (← Aes.Leak.LVec.bitand self.f1 rhs.f1)⟩ : (Aes.DefaultX4.X4 X2))

/-- src/aesdefault_x4.rs:74-76 `bitor`. -/
def bitor (self : (Aes.DefaultX4.X4 X2)) (rhs : (Aes.DefaultX4.X4 X2)) : Aes.Leak.L (Aes.DefaultX4.X4 X2) := do
  pure (⟨(← Aes.Leak.LVec.bitor self.f0 rhs.f0), (← Aes.Leak.LVec.bitor self.f1 rhs.f1)⟩ : (Aes.DefaultX4.X4 X2))

/-- src/aesdefault_x4.rs:83-85 `bitxor`. -/
def bitxor (self : (Aes.DefaultX4.X4 X2)) (rhs : (Aes.DefaultX4.X4 X2)) : Aes.Leak.L (Aes.DefaultX4.X4 X2) := do
  pure (⟨(← Aes.Leak.LVec.bitxor self.f0 rhs.f0), (← Aes.Leak.LVec.bitxor self.f1 rhs.f1)⟩ : (Aes.DefaultX4.X4 X2))

/-- src/aesdefault_x4.rs:92-94 `not`. -/
def not (self : (Aes.DefaultX4.X4 X2)) : Aes.Leak.L (Aes.DefaultX4.X4 X2) := do
  pure (⟨(← Aes.Leak.LVec.not self.f0), (← Aes.Leak.LVec.not self.f1)⟩ : (Aes.DefaultX4.X4 X2))

/-- src/aesdefault_x4.rs:107-111 `store_to`. -/
def store_to (self : (Aes.DefaultX4.X4 X2)) (dst : List U8) : Aes.Leak.L (List U8) := do
  Aes.Leak.assert (decide (dst.length ≥ 64))
  let dst ← Aes.Leak.onTo dst 32 (fun s => Aes.Leak.LVec.store_to self.f0 s)
  let dst ← Aes.Leak.onFrom dst 32 (fun s => Aes.Leak.LVec.store_to self.f1 s)
  pure dst

/-- src/aesdefault_x4.rs:114-116 `zero`. -/
def zero : Aes.Leak.L (Aes.DefaultX4.X4 X2) := do
  pure (⟨(← Aes.Leak.LVec.zero), (← Aes.Leak.LVec.zero)⟩ : (Aes.DefaultX4.X4 X2))

/-- src/aesdefault_x4.rs:120-122 `is_zero`. -/
def is_zero (self : (Aes.DefaultX4.X4 X2)) : Aes.Leak.L Bool := do
  Aes.Leak.emit .and ((← Aes.Leak.LVec.is_zero self.f0) && (← Aes.Leak.LVec.is_zero self.f1))

/-- src/aesdefault_x4.rs:126-128 `enc`. -/
def enc (self : (Aes.DefaultX4.X4 X2)) (round_key : (Aes.DefaultX4.X4 X2)) : Aes.Leak.L (Aes.DefaultX4.X4 X2) := do
  pure (⟨(← Aes.Leak.LVec.enc self.f0 round_key.f0), (← Aes.Leak.LVec.enc self.f1 round_key.f1)⟩ : (Aes.DefaultX4.X4 X2))

/-- src/aesdefault_x4.rs:132-134 `dec`. -/
def dec (self : (Aes.DefaultX4.X4 X2)) (round_key : (Aes.DefaultX4.X4 X2)) : Aes.Leak.L (Aes.DefaultX4.X4 X2) := do
  pure (⟨(← Aes.Leak.LVec.dec self.f0 round_key.f0), (← Aes.Leak.LVec.dec self.f1 round_key.f1)⟩ : (Aes.DefaultX4.X4 X2))

/-- src/aesdefault_x4.rs:138-140 `enc_last`. -/
def enc_last (self : (Aes.DefaultX4.X4 X2)) (round_key : (Aes.DefaultX4.X4 X2)) : Aes.Leak.L (Aes.DefaultX4.X4 X2) := do
  pure (⟨(← Aes.Leak.LVec.enc_last self.f0 round_key.f0), (← Aes.Leak.LVec.enc_last self.f1 round_key.f1)⟩ : (Aes.DefaultX4.X4 X2))

/-- src/aesdefault_x4.rs:144-146 `dec_last`. -/
def dec_last (self : (Aes.DefaultX4.X4 X2)) (round_key : (Aes.DefaultX4.X4 X2)) : Aes.Leak.L (Aes.DefaultX4.X4 X2) := do
  pure (⟨(← Aes.Leak.LVec.dec_last self.f0 round_key.f0), (← Aes.Leak.LVec.dec_last self.f1 round_key.f1)⟩ : (Aes.DefaultX4.X4 X2))

/-- What src/aesdefault_x4.rs provides to the rest of the crate. -/
@[reducible] def vec : Aes.Leak.LVec (Aes.DefaultX4.X4 X2) 64 where
  new := new
  from_bytes := from_bytes
  store_to := store_to
  zero := zero
  is_zero := is_zero
  eq := eq
  bitand := bitand
  bitor := bitor
  bitxor := bitxor
  not := not
  enc := enc
  dec := dec
  enc_last := enc_last
  dec_last := dec_last
  pre := none

end RustSrc.Leak.DefaultX4
