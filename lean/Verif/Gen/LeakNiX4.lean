import Verif.Gen.LeakCore
import Verif.Gen.LeakIntrinsics
import Verif.Gen.NiX4
/-
src/aesni_x4.rs, function by function, with the trace of every call.
Generated by tools/rust2lean.py; do not edit.
-/
namespace RustSrc.Leak.NiX4
open Rust
open RustSrc.Leak.Core
variable [Cfg]

/-- src/aesni_x4.rs:17-19 `eq`. -/
def eq (self : Aes.NiX4.X4) (other : Aes.NiX4.X4) : Aes.Leak.L Bool := do
  Aes.Leak.eqw (← _mm512_cmpeq_epi64_mask self.val other.val) 0xff#8

/-- src/aesni_x4.rs:26-28 `from`. -/
def from_bytes (value : Vector U8 64) : Aes.Leak.L Aes.NiX4.X4 := do
  pure (⟨(← _mm512_loadu_si512 value.toList)⟩ : Aes.NiX4.X4)

/-- src/aesni_x4.rs:95-97 `bitand`. -/
def bitand (self : Aes.NiX4.X4) (rhs : Aes.NiX4.X4) : Aes.Leak.L Aes.NiX4.X4 := do
  pure (⟨(← _mm512_and_si512 self.val rhs.val)⟩ : Aes.NiX4.X4)

/-- src/aesni_x4.rs:104-106 `bitor`. -/
def bitor (self : Aes.NiX4.X4) (rhs : Aes.NiX4.X4) : Aes.Leak.L Aes.NiX4.X4 := do
  pure (⟨(← _mm512_or_si512 self.val rhs.val)⟩ : Aes.NiX4.X4)

/-- src/aesni_x4.rs:113-115 `bitxor`. -/
def bitxor (self : Aes.NiX4.X4) (rhs : Aes.NiX4.X4) : Aes.Leak.L Aes.NiX4.X4 := do
  pure (⟨(← _mm512_xor_si512 self.val rhs.val)⟩ : Aes.NiX4.X4)

/-- src/aesni_x4.rs:122-124 `not`. -/
def not (self : Aes.NiX4.X4) : Aes.Leak.L Aes.NiX4.X4 := do
  pure (⟨(← _mm512_xor_si512 self.val (_mm512_set1_epi64 (-1#64)))⟩ : Aes.NiX4.X4)

/-- src/aesni_x4.rs:129-131 `new`. -/
def new (value : Vector U8 64) : Aes.Leak.L Aes.NiX4.X4 :=
  Aes.Leak.emit .move (transmute value)

/-- src/aesni_x4.rs:134-137 `store_to`. -/
def store_to (self : Aes.NiX4.X4) (dst : List U8) : Aes.Leak.L (List U8) := do
  Aes.Leak.assert (decide (dst.length ≥ 64))
  let dst ← _mm512_storeu_si512 dst self.val
  pure dst

/-- src/aesni_x4.rs:140-142 `zero`. -/
def zero : Aes.Leak.L Aes.NiX4.X4 :=
  pure (⟨_mm512_setzero_si512⟩ : Aes.NiX4.X4)

/-- src/aesni_x4.rs:146-148 `is_zero`. -/
def is_zero (self : Aes.NiX4.X4) : Aes.Leak.L Bool := do
  Aes.Leak.eqw (← _mm512_test_epi64_mask self.val self.val) 0#8

/-- src/aesni_x4.rs:152-154 `enc`. -/
def enc (self : Aes.NiX4.X4) (round_key : Aes.NiX4.X4) : Aes.Leak.L Aes.NiX4.X4 := do
  pure (⟨(← _mm512_aesenc_epi128 self.val round_key.val)⟩ : Aes.NiX4.X4)

/-- src/aesni_x4.rs:158-160 `dec`. -/
def dec (self : Aes.NiX4.X4) (round_key : Aes.NiX4.X4) : Aes.Leak.L Aes.NiX4.X4 := do
  pure (⟨(← _mm512_aesdec_epi128 self.val round_key.val)⟩ : Aes.NiX4.X4)

/-- src/aesni_x4.rs:164-166 `enc_last`. -/
def enc_last (self : Aes.NiX4.X4) (round_key : Aes.NiX4.X4) : Aes.Leak.L Aes.NiX4.X4 := do
  pure (⟨(← _mm512_aesenclast_epi128 self.val round_key.val)⟩ : Aes.NiX4.X4)

/-- src/aesni_x4.rs:170-172 `dec_last`. -/
def dec_last (self : Aes.NiX4.X4) (round_key : Aes.NiX4.X4) : Aes.Leak.L Aes.NiX4.X4 := do
  pure (⟨(← _mm512_aesdeclast_epi128 self.val round_key.val)⟩ : Aes.NiX4.X4)

/-- What src/aesni_x4.rs provides to the rest of the crate. -/
@[reducible] def vec : Aes.Leak.LVec Aes.NiX4.X4 64 where
  new := new
  from_bytes := from_bytes
  store_to := store_to
  zero := zero
  is_zero := is_zero
  eq := eq
  bitand := bitand
  bitor := bitor
  bitxor := bitxor
  not := not
  enc := enc
  dec := dec
  enc_last := enc_last
  dec_last := dec_last
  pre := none

end RustSrc.Leak.NiX4
