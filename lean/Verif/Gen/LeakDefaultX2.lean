import Verif.Gen.LeakCore
import Verif.Gen.LeakIntrinsics
import Verif.Gen.DefaultX2
/-
src/aesdefault_x2.rs, function by function, with the trace of every call.
Generated by tools/rust2lean.py; do not edit.
-/
namespace RustSrc.Leak.DefaultX2
open Rust
open RustSrc.Leak.Core
variable [Cfg] {B : Type} [Aes.Leak.LBlock B]

/-- src/aesdefault_x2.rs:5-8 `#[derive(PartialEq)]`. -/
def eq (self other : (Aes.DefaultX2.X2 B)) : Aes.Leak.L Bool :=
  Aes.Leak.andAlso (Aes.Leak.LVec.eq self.f0 other.f0) (Aes.Leak.LVec.eq self.f1 other.f1)

/-- src/aesdefault_x2.rs:76-81 `new`. -/
def new (value : Vector U8 32) : Aes.Leak.L (Aes.DefaultX2.X2 B) := do
  pure (⟨(← Aes.Leak.LVec.new (← array_from_slice 16 value.toList 0)), (← Aes.Leak.LVec.new (← array_from_slice 16 value.toList 16))⟩ : (Aes.DefaultX2.X2 B))

/-- src/aesdefault_x2.rs:12-14 `from`. -/
def from_bytes (value : Vector U8 32) : Aes.Leak.L (Aes.DefaultX2.X2 B) :=
  new value

/-- src/aesdefault_x2.rs:42-44 `bitand`. -/
def bitand (self : (Aes.DefaultX2.X2 B)) (rhs : (Aes.DefaultX2.X2 B)) : Aes.Leak.L (Aes.DefaultX2.X2 B) := do
  pure (⟨(← Aes.Leak.LVec.bitand self.f0 rhs.f0), (← Aes.Leak.LVec.bitand self.f1 rhs.f1)⟩ : (Aes.DefaultX2.X2 B))

/-- src/aesdefault_x2.rs:51-53 `bitor`. -/
def bitor (self : (Aes.DefaultX2.X2 B)) (rhs : (Aes.DefaultX2.X2 B)) : Aes.Leak.L (Aes.DefaultX2.X2 B) := do
  pure (⟨(← Aes.Leak.LVec.bitor self.f0 rhs.f0), (← Aes.Leak.LVec.bitor self.f1 rhs.f1)⟩ : (Aes.DefaultX2.X2 B))

/-- src/aesdefault_x2.rs:60-62 `bitxor`. -/
def bitxor (self : (Aes.DefaultX2.X2 B)) (rhs : (Aes.DefaultX2.X2 B)) : Aes.Leak.L (Aes.DefaultX2.X2 B) := do
  pure (⟨(← Aes.Leak.LVec.bitxor self.f0 rhs.f0), (← Aes.Leak.LVec.bitxor self.f1 rhs.f1)⟩ : (Aes.DefaultX2.X2 B))

/-- src/aesdefault_x2.rs:69-71 `not`. -/
def not (self : (Aes.DefaultX2.X2 B)) : Aes.Leak.L (Aes.DefaultX2.X2 B) := do
  pure (⟨(← Aes.Leak.LVec.not self.f0), (← Aes.Leak.LVec.not self.f1)⟩ : (Aes.DefaultX2.X2 B))

/-- src/aesdefault_x2.rs:84-88 `store_to`. -/
def store_to (self : (Aes.DefaultX2.X2 B)) (dst : List U8) : Aes.Leak.L (List U8) := do
  Aes.Leak.assert (decide (dst.length ≥ 32))
  let dst ← Aes.Leak.onTo dst 16 (fun s => Aes.Leak.LVec.store_to self.f0 s)
  let dst ← Aes.Leak.onFrom dst 16 (fun s => Aes.Leak.LVec.store_to self.f1 s)
  pure dst

/-- src/aesdefault_x2.rs:91-93 `zero`. -/
def zero : Aes.Leak.L (Aes.DefaultX2.X2 B) := do
  pure (⟨(← Aes.Leak.LVec.zero), (← Aes.Leak.LVec.zero)⟩ : (Aes.DefaultX2.X2 B))

/-- src/aesdefault_x2.rs:97-99 `is_zero`. -/
def is_zero (self : (Aes.DefaultX2.X2 B)) : Aes.Leak.L Bool := do
  Aes.Leak.emit .and ((← Aes.Leak.LVec.is_zero self.f0) && (← Aes.Leak.LVec.is_zero self.f1))

/-- src/aesdefault_x2.rs:103-105 `enc`. -/
def enc (self : (Aes.DefaultX2.X2 B)) (round_key : (Aes.DefaultX2.X2 B)) : Aes.Leak.L (Aes.DefaultX2.X2 B) := do
  pure (⟨(← Aes.Leak.LVec.enc self.f0 round_key.f0), (← Aes.Leak.LVec.enc self.f1 round_key.f1)⟩ : (Aes.DefaultX2.X2 B))

/-- src/aesdefault_x2.rs:109-111 `dec`. -/
def dec (self : (Aes.DefaultX2.X2 B)) (round_key : (Aes.DefaultX2.X2 B)) : Aes.Leak.L (Aes.DefaultX2.X2 B) := do
  pure (⟨(← Aes.Leak.LVec.dec self.f0 round_key.f0), (← Aes.Leak.LVec.dec self.f1 round_key.f1)⟩ : (Aes.DefaultX2.X2 B))

/-- src/aesdefault_x2.rs:115-117 `enc_last`. -/
def enc_last (self : (Aes.DefaultX2.X2 B)) (round_key : (Aes.DefaultX2.X2 B)) : Aes.Leak.L (Aes.DefaultX2.X2 B) := do
  pure (⟨(← Aes.Leak.LVec.enc_last self.f0 round_key.f0), (← Aes.Leak.LVec.enc_last self.f1 round_key.f1)⟩ : (Aes.DefaultX2.X2 B))

/-- src/aesdefault_x2.rs:121-123 `dec_last`. -/
def dec_last (self : (Aes.DefaultX2.X2 B)) (round_key : (Aes.DefaultX2.X2 B)) : Aes.Leak.L (Aes.DefaultX2.X2 B) := do
  pure (⟨(← Aes.Leak.LVec.dec_last self.f0 round_key.f0), (← Aes.Leak.LVec.dec_last self.f1 round_key.f1)⟩ : (Aes.DefaultX2.X2 B))

/-- What src/aesdefault_x2.rs provides to the rest of the crate. -/
@[reducible] def vec : Aes.Leak.LVec (Aes.DefaultX2.X2 B) 32 where
  new := new
  from_bytes := from_bytes
  store_to := store_to
  zero := zero
  is_zero := is_zero
  eq := eq
  bitand := bitand
  bitor := bitor
  bitxor := bitxor
  not := not
  enc := enc
  dec := dec
  enc_last := enc_last
  dec_last := dec_last
  pre := none

end RustSrc.Leak.DefaultX2
