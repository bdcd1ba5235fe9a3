import Verif.Gen.LeakCore
import Verif.Gen.LeakIntrinsics
import Verif.Gen.NiX2
/-
src/aesni_x2.rs, function by function, with the trace of every call.
Generated by tools/rust2lean.py; do not edit.
-/
namespace RustSrc.Leak.NiX2
open Rust
open RustSrc.Leak.Core
variable [Cfg]

/-- src/aesni_x2.rs:77-79 `bitxor`. -/
def bitxor (self : Aes.NiX2.X2) (rhs : Aes.NiX2.X2) : Aes.Leak.L Aes.NiX2.X2 := do
  pure (⟨(← _mm256_xor_si256 self.val rhs.val)⟩ : Aes.NiX2.X2)

/-- src/aesni_x2.rs:110-112 `is_zero`. -/
def is_zero (self : Aes.NiX2.X2) : Aes.Leak.L Bool := do
  Aes.Leak.eqw (← _mm256_testz_si256 self.val self.val) 1#32

/-- src/aesni_x2.rs:16-18 `eq`. -/
def eq (self : Aes.NiX2.X2) (other : Aes.NiX2.X2) : Aes.Leak.L Bool := do
  is_zero (← bitxor self other)

/-- src/aesni_x2.rs:25-27 `from`. -/
def from_bytes (value : Vector U8 32) : Aes.Leak.L Aes.NiX2.X2 := do
  pure (⟨(← _mm256_loadu_si256 value.toList)⟩ : Aes.NiX2.X2)

/-- src/aesni_x2.rs:60-62 `bitand`. -/
def bitand (self : Aes.NiX2.X2) (rhs : Aes.NiX2.X2) : Aes.Leak.L Aes.NiX2.X2 := do
  pure (⟨(← _mm256_and_si256 self.val rhs.val)⟩ : Aes.NiX2.X2)

/-- src/aesni_x2.rs:68-70 `bitor`. -/
def bitor (self : Aes.NiX2.X2) (rhs : Aes.NiX2.X2) : Aes.Leak.L Aes.NiX2.X2 := do
  pure (⟨(← _mm256_or_si256 self.val rhs.val)⟩ : Aes.NiX2.X2)

/-- src/aesni_x2.rs:86-88 `not`. -/
def not (self : Aes.NiX2.X2) : Aes.Leak.L Aes.NiX2.X2 := do
  pure (⟨(← _mm256_xor_si256 self.val (_mm256_set1_epi64x (-1#64)))⟩ : Aes.NiX2.X2)

/-- src/aesni_x2.rs:93-95 `new`. -/
def new (value : Vector U8 32) : Aes.Leak.L Aes.NiX2.X2 :=
  Aes.Leak.emit .move (transmute value)

/-- src/aesni_x2.rs:98-101 `store_to`. -/
def store_to (self : Aes.NiX2.X2) (dst : List U8) : Aes.Leak.L (List U8) := do
  Aes.Leak.assert (decide (dst.length ≥ 32))
  let dst ← _mm256_storeu_si256 dst self.val
  pure dst

/-- src/aesni_x2.rs:104-106 `zero`. -/
def zero : Aes.Leak.L Aes.NiX2.X2 :=
  pure (⟨_mm256_setzero_si256⟩ : Aes.NiX2.X2)

/-- src/aesni_x2.rs:116-118 `enc`. -/
def enc (self : Aes.NiX2.X2) (round_key : Aes.NiX2.X2) : Aes.Leak.L Aes.NiX2.X2 := do
  pure (⟨(← _mm256_aesenc_epi128 self.val round_key.val)⟩ : Aes.NiX2.X2)

/-- src/aesni_x2.rs:122-124 `dec`. -/
def dec (self : Aes.NiX2.X2) (round_key : Aes.NiX2.X2) : Aes.Leak.L Aes.NiX2.X2 := do
  pure (⟨(← _mm256_aesdec_epi128 self.val round_key.val)⟩ : Aes.NiX2.X2)

/-- src/aesni_x2.rs:128-130 `enc_last`. -/
def enc_last (self : Aes.NiX2.X2) (round_key : Aes.NiX2.X2) : Aes.Leak.L Aes.NiX2.X2 := do
  pure (⟨(← _mm256_aesenclast_epi128 self.val round_key.val)⟩ : Aes.NiX2.X2)

/-- src/aesni_x2.rs:134-136 `dec_last`. -/
def dec_last (self : Aes.NiX2.X2) (round_key : Aes.NiX2.X2) : Aes.Leak.L Aes.NiX2.X2 := do
  pure (⟨(← _mm256_aesdeclast_epi128 self.val round_key.val)⟩ : Aes.NiX2.X2)

/-- What src/aesni_x2.rs provides to the rest of the crate. -/
@[reducible] def vec : Aes.Leak.LVec Aes.NiX2.X2 32 where
  new := new
  from_bytes := from_bytes
  store_to := store_to
  zero := zero
  is_zero := is_zero
  eq := eq
  bitand := bitand
  bitor := bitor
  bitxor := bitxor
  not := not
  enc := enc
  dec := dec
  enc_last := enc_last
  dec_last := dec_last
  pre := none

end RustSrc.Leak.NiX2
