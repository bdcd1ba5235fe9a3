import Verif.Model.Leak
import Verif.Model.Target
/-
The leakage version of src/lib.rs, src/aesdefault_x2.rs and src/aesdefault_x4.rs (the code that is the same for all
implementations of `AesBlock`), and of the key-expansion loops of Verif/Model/Columns.lean.

Moves of whole blocks (building tuples and arrays, `Copy`) produce no event.
-/
namespace Aes.Leak
open Rust

/-- The crate-private `pre_enc`/`pre_dec` (see `Aes.Pre`). -/
structure LPre (T : Type) where
  pre_enc : T → T → L T
  pre_dec : T → T → L T

/-- The operations of a block type (see `Aes.AesVec`). -/
class LVec (T : Type) (n : outParam Nat) where
  new : Vector U8 n → L T
  from_bytes : Vector U8 n → L T
  store_to : T → List U8 → L (List U8)
  zero : L T
  is_zero : T → L Bool
  eq : T → T → L Bool
  bitand : T → T → L T
  bitor : T → T → L T
  bitxor : T → T → L T
  not : T → L T
  enc : T → T → L T
  dec : T → T → L T
  enc_last : T → T → L T
  dec_last : T → T → L T
  pre : Option (LPre T)

/-- The operations of `AesBlock` (see `Aes.AesBlock`). -/
class LBlock (B : Type) extends LVec B 16 where
  mc : B → L B
  imc : B → L B
  keygen_128 : Vector U8 16 → L (Vector B 11)
  keygen_192 : Vector U8 24 → L (Vector B 13)
  keygen_256 : Vector U8 32 → L (Vector B 15)

/-! ### src/lib.rs -/

/-- src/lib.rs:137-140 `array_from_slice`. -/
def array_from_slice (n : Nat) (value : List U8) (offset : Nat) : L (Vector U8 n) := rawRead value offset n

/-- src/lib.rs:127-133 `try_from_slice`. -/
def try_from_slice {T : Type} (n : Nat) (from_ : Vector U8 n → L T) (value : List U8) : L (Except Nat T) := do
  branch (decide (value.length ≥ n))
  if value.length ≥ n then do
    let t ← from_ (← array_from_slice n value 0)
    pure (.ok t)
  else
    pure (.error value.length)

section common
variable {T : Type} {n : Nat} [LVec T n]
open LVec

/-- src/lib.rs:172-179 `impl TryFrom<&[u8]>`. -/
def try_from (value : List U8) : L (Except Nat T) := try_from_slice n from_bytes value

/-- src/lib.rs:181-188 `impl From<T> for [u8; N]`. -/
def into_bytes (value : T) : L (Vector U8 n) := do
  let dst ← store_to value (List.replicate n 0#8)
  ⟨[], Rust.arrayTryFrom n dst⟩

/-- src/lib.rs:372-380. -/
def chain_enc_pre (p : LPre T) (self : T) (keys : List T) : L T := do
  assert (keys.length != 0)
  let ks ← sliceTo keys (keys.length - 1)
  let acc ← forEach ks (fun acc key => p.pre_enc acc key) self
  let last ← sidx keys (keys.length - 1)
  bitxor acc last
/-- src/lib.rs:383-391. -/
def chain_dec_pre (p : LPre T) (self : T) (keys : List T) : L T := do
  assert (keys.length != 0)
  let ks ← sliceTo keys (keys.length - 1)
  let acc ← forEach ks (fun acc key => p.pre_dec acc key) self
  let last ← sidx keys (keys.length - 1)
  bitxor acc last
/-- src/lib.rs:400-408. -/
def chain_enc_std (self : T) (keys : List T) : L T := do
  assert (keys.length != 0)
  let k0 ← sidx keys 0
  let acc ← bitxor self k0
  let ks ← sliceFrom keys 1
  forEach ks (fun acc key => enc acc key) acc
/-- src/lib.rs:411-419. -/
def chain_dec_std (self : T) (keys : List T) : L T := do
  assert (keys.length != 0)
  let k0 ← sidx keys 0
  let acc ← bitxor self k0
  let ks ← sliceFrom keys 1
  forEach ks (fun acc key => dec acc key) acc
/-- src/lib.rs:333-426 `chain_enc`. -/
def chain_enc (self : T) (keys : List T) : L T :=
  match (pre : Option (LPre T)) with
  | some p => chain_enc_pre p self keys
  | none => chain_enc_std self keys
/-- src/lib.rs:333-426 `chain_dec`. -/
def chain_dec (self : T) (keys : List T) : L T :=
  match (pre : Option (LPre T)) with
  | some p => chain_dec_pre p self keys
  | none => chain_dec_std self keys

end common

/-- src/lib.rs:348-366 `impl_pre_encdec!`. -/
def impl_pre_encdec {T U : Type} (into : T → U × U) (from_ : U × U → T) (p : LPre U) : LPre T where
  pre_enc := fun self round_key => do
    pure (from_ (← p.pre_enc (into self).1 (into round_key).1, ← p.pre_enc (into self).2 (into round_key).2))
  pre_dec := fun self round_key => do
    pure (from_ (← p.pre_dec (into self).1 (into round_key).1, ← p.pre_dec (into self).2 (into round_key).2))

section block
variable {B : Type} [LBlock B]
open LVec LBlock

/-- src/lib.rs:142-147 `From<u128> for AesBlock`. -/
def from_u128 (value : U128) : L B := do from_bytes (← emit .move (toBe 16 value))
/-- src/lib.rs:149-154 `From<AesBlock> for u128`. -/
def into_u128 (value : B) : L U128 := do emit .move (fromBe 128 (← into_bytes value))

/-- src/lib.rs:312-320 `dec_round_keys`. -/
def dec_round_keys {N : Nat} (enc_round_keys : Vector B N) : L (Vector B N) := do
  let drk : Vector B N := Vector.replicate N (← zero)
  let drk ← upd .data drk 0 (← idx .data enc_round_keys (N - 1))
  let drk ← forEach (rangeStep 1 (N - 1) 1) (fun drk i => do
    upd .data drk i (← imc (← idx .data enc_round_keys (N - 1 - i)))) drk
  upd .data drk (N - 1) (← idx .data enc_round_keys 0)
/-- src/lib.rs:323-331 `enc_round_keys`. -/
def enc_round_keys {N : Nat} (dec_round_keys : Vector B N) : L (Vector B N) := do
  let rk : Vector B N := Vector.replicate N (← zero)
  let rk ← upd .data rk 0 (← idx .data dec_round_keys (N - 1))
  let rk ← forEach (rangeStep 1 (N - 1) 1) (fun rk i => do
    upd .data rk i (← mc (← idx .data dec_round_keys (N - 1 - i)))) rk
  upd .data rk (N - 1) (← idx .data dec_round_keys 0)

/-- src/lib.rs:461-465 `decrypter`. -/
def decrypter {nr : Nat} (self : AesEnc B nr) : L (AesDec B nr) := do pure ⟨← dec_round_keys self.round_keys⟩
/-- src/lib.rs:491-495 `encrypter`. -/
def encrypter {nr : Nat} (self : AesDec B nr) : L (AesEnc B nr) := do pure ⟨← enc_round_keys self.round_keys⟩
/-- src/lib.rs:437-443,520-522 `From` of the encrypters. -/
def enc_from_128 (value : Vector U8 16) : L (AesEnc B 10) := do pure ⟨← keygen_128 value⟩
/-- src/lib.rs:437-443,520-522 `From` of the encrypters. -/
def enc_from_192 (value : Vector U8 24) : L (AesEnc B 12) := do pure ⟨← keygen_192 value⟩
/-- src/lib.rs:437-443,520-522 `From` of the encrypters. -/
def enc_from_256 (value : Vector U8 32) : L (AesEnc B 14) := do pure ⟨← keygen_256 value⟩
/-- src/lib.rs:452-456,520-522 `From` of the decrypters. -/
def dec_from_128 (value : Vector U8 16) : L (AesDec B 10) := do decrypter (← enc_from_128 value)
/-- src/lib.rs:452-456,520-522 `From` of the decrypters. -/
def dec_from_192 (value : Vector U8 24) : L (AesDec B 12) := do decrypter (← enc_from_192 value)
/-- src/lib.rs:452-456,520-522 `From` of the decrypters. -/
def dec_from_256 (value : Vector U8 32) : L (AesDec B 14) := do decrypter (← enc_from_256 value)

end block

section crypt
variable {B T : Type} {n : Nat} [LVec T n]
open LVec

/-- src/lib.rs:467-485 `encrypt_block`, `encrypt_2_blocks`, `encrypt_4_blocks`: `into` broadcasts a round key (the identity
for one block). -/
def encrypt (into : B → T) {nr : Nat} (self : AesEnc B nr) (plaintext : T) : L T := do
  let round_keys : Vector T (nr + 1) := self.round_keys.map into
  let acc ← chain_enc plaintext (← sliceTo round_keys.toList nr)
  enc_last acc (← idx .data round_keys nr)
/-- src/lib.rs:497-515 `decrypt_block`, `decrypt_2_blocks`, `decrypt_4_blocks`. -/
def decrypt (into : B → T) {nr : Nat} (self : AesDec B nr) (ciphertext : T) : L T := do
  let round_keys : Vector T (nr + 1) := self.round_keys.map into
  let acc ← chain_dec ciphertext (← sliceTo round_keys.toList nr)
  dec_last acc (← idx .data round_keys nr)
end crypt

/-! ### The default wide blocks: pairs -/

section pair
variable {U : Type} {n : Nat} [LVec U n]

/-- `a && b` on the results of two comparisons: the second runs only if the first is true (derived `PartialEq`). -/
def andAlso (a : L Bool) (b : L Bool) : L Bool := do
  let x ← a
  branch x
  if x then b else pure false
/-- `a & b` on `bool`: both run. -/
def andBoth (a : L Bool) (b : L Bool) : L Bool := do
  let x ← a
  let y ← b
  emit .and (x && y)

/-- The methods of src/aesdefault_x2.rs:5-123 and of src/aesdefault_x4.rs:5-146, which have the same text for the two
types: a struct `T` of two halves `U` of `n` bytes. -/
@[reducible] def pairVec (T : Type) (mk : U → U → T) (f0 f1 : T → U) (N : Nat) (into : T → U × U) (from_ : U × U → T) : LVec T N where
  new value := do
    pure (mk (← LVec.new (← array_from_slice n value.toList 0)) (← LVec.new (← array_from_slice n value.toList n)))
  from_bytes value := do
    pure (mk (← LVec.new (← array_from_slice n value.toList 0)) (← LVec.new (← array_from_slice n value.toList n)))
  store_to self dst := do
    assert (dst.length ≥ N)
    let dst ← onTo dst n fun s => LVec.store_to (f0 self) s
    let dst ← onFrom dst n fun s => LVec.store_to (f1 self) s
    pure dst
  zero := do pure (mk (← LVec.zero) (← LVec.zero))
  is_zero self := andBoth (LVec.is_zero (f0 self)) (LVec.is_zero (f1 self))
  eq self other := andAlso (LVec.eq (f0 self) (f0 other)) (LVec.eq (f1 self) (f1 other))
  bitand self rhs := do pure (mk (← LVec.bitand (f0 self) (f0 rhs)) (← LVec.bitand (f1 self) (f1 rhs)))
  bitor self rhs := do pure (mk (← LVec.bitor (f0 self) (f0 rhs)) (← LVec.bitor (f1 self) (f1 rhs)))
  bitxor self rhs := do pure (mk (← LVec.bitxor (f0 self) (f0 rhs)) (← LVec.bitxor (f1 self) (f1 rhs)))
  not self := do pure (mk (← LVec.not (f0 self)) (← LVec.not (f1 self)))
  enc self rhs := do pure (mk (← LVec.enc (f0 self) (f0 rhs)) (← LVec.enc (f1 self) (f1 rhs)))
  dec self rhs := do pure (mk (← LVec.dec (f0 self) (f0 rhs)) (← LVec.dec (f1 self) (f1 rhs)))
  enc_last self rhs := do pure (mk (← LVec.enc_last (f0 self) (f0 rhs)) (← LVec.enc_last (f1 self) (f1 rhs)))
  dec_last self rhs := do pure (mk (← LVec.dec_last (f0 self) (f0 rhs)) (← LVec.dec_last (f1 self) (f1 rhs)))
  pre := (LVec.pre (T := U)).map (impl_pre_encdec into from_)
end pair

/-- src/aesdefault_x2.rs. -/
instance {B : Type} [LBlock B] : LVec (DefaultX2.X2 B) 32 :=
  pairVec (U := B) (DefaultX2.X2 B) DefaultX2.X2.mk DefaultX2.X2.f0 DefaultX2.X2.f1 32
    (fun v => (v.f0, v.f1)) (fun p => ⟨p.1, p.2⟩)
/-- src/aesdefault_x4.rs. -/
instance {X2 : Type} [LVec X2 32] : LVec (DefaultX4.X4 X2) 64 :=
  pairVec (U := X2) (DefaultX4.X4 X2) DefaultX4.X4.mk DefaultX4.X4.f0 DefaultX4.X4.f1 64
    (fun v => (v.f0, v.f1)) (fun p => ⟨p.1, p.2⟩)

/-! ### Key-expansion loops (see Verif/Model/Columns.lean for what they model) -/

namespace Columns
open Aes.Columns (RCON)

/-- See `Aes.Columns.load_columns`. -/
def load_columns (e : Endian) {n : Nat} (key : List U8) (columns : Vector U32 n) : L (Vector U32 n) :=
  forEach (chunksExact 4 key).zipIdx (fun columns c => do
    upd .data columns c.2 (← emit .move (fromNe e 32 (← arrayTryFrom 4 c.1)))) columns

/-- `columns[i]`, `columns[j]` and `RCON[r]`, combined: the reads are the callee's, in the order of its own text. -/
abbrev First (n : Nat) := Vector U32 n → Nat → Nat → Nat → L U32

/-- See `Aes.Columns.step_128`. -/
def step_128 (first : First 44) (columns : Vector U32 44) (i : Nat) : L (Vector U32 44) := do
  let columns ← upd .data columns (i + 4)
    (← first columns (i + 0) (i + 3) (i / 4))
  let columns ← upd .data columns (i + 5) (← xor (← idx .data columns (i + 1)) (← idx .data columns (i + 4)))
  let columns ← upd .data columns (i + 6) (← xor (← idx .data columns (i + 2)) (← idx .data columns (i + 5)))
  let columns ← upd .data columns (i + 7) (← xor (← idx .data columns (i + 3)) (← idx .data columns (i + 6)))
  pure columns

/-- See `Aes.Columns.columns_128`. -/
def columns_128 (first : First 44) (e : Endian) (key : Vector U8 16) : L (Vector U32 44) := do
  let columns : Vector U32 44 := Vector.replicate 44 0
  let columns ← load_columns e key.toList columns
  forEach (rangeStep 0 40 4) (step_128 first) columns

/-- See `Aes.Columns.step_192`. -/
def step_192 (first : First 52) (columns : Vector U32 52) (i : Nat) : L (Vector U32 52) := do
  let columns ← upd .data columns (i + 6)
    (← first columns (i + 0) (i + 5) (i / 6))
  let columns ← upd .data columns (i + 7) (← xor (← idx .data columns (i + 1)) (← idx .data columns (i + 6)))
  let columns ← upd .data columns (i + 8) (← xor (← idx .data columns (i + 2)) (← idx .data columns (i + 7)))
  let columns ← upd .data columns (i + 9) (← xor (← idx .data columns (i + 3)) (← idx .data columns (i + 8)))
  let columns ← upd .data columns (i + 10) (← xor (← idx .data columns (i + 4)) (← idx .data columns (i + 9)))
  let columns ← upd .data columns (i + 11) (← xor (← idx .data columns (i + 5)) (← idx .data columns (i + 10)))
  pure columns

/-- See `Aes.Columns.columns_192`. -/
def columns_192 (first : First 52) (e : Endian) (key : Vector U8 24) : L (Vector U32 52) := do
  let columns : Vector U32 52 := Vector.replicate 52 0
  let columns ← load_columns e key.toList columns
  let columns ← forEach (rangeStep 0 42 6) (step_192 first) columns
  let columns ← upd .data columns 48 (← first columns 42 47 7)
  let columns ← upd .data columns 49 (← xor (← idx .data columns 43) (← idx .data columns 48))
  let columns ← upd .data columns 50 (← xor (← idx .data columns 44) (← idx .data columns 49))
  let columns ← upd .data columns 51 (← xor (← idx .data columns 45) (← idx .data columns 50))
  pure columns

/-- See `Aes.Columns.step_256`. -/
def step_256 (first : First 60) (fifth : Vector U32 60 → Nat → Nat → L U32) (columns : Vector U32 60) (i : Nat) : L (Vector U32 60) := do
  let columns ← upd .data columns (i + 8)
    (← first columns (i + 0) (i + 7) (i / 8))
  let columns ← upd .data columns (i + 9) (← xor (← idx .data columns (i + 1)) (← idx .data columns (i + 8)))
  let columns ← upd .data columns (i + 10) (← xor (← idx .data columns (i + 2)) (← idx .data columns (i + 9)))
  let columns ← upd .data columns (i + 11) (← xor (← idx .data columns (i + 3)) (← idx .data columns (i + 10)))
  let columns ← upd .data columns (i + 12) (← fifth columns (i + 4) (i + 11))
  let columns ← upd .data columns (i + 13) (← xor (← idx .data columns (i + 5)) (← idx .data columns (i + 12)))
  let columns ← upd .data columns (i + 14) (← xor (← idx .data columns (i + 6)) (← idx .data columns (i + 13)))
  let columns ← upd .data columns (i + 15) (← xor (← idx .data columns (i + 7)) (← idx .data columns (i + 14)))
  pure columns

/-- See `Aes.Columns.columns_256`. -/
def columns_256 (first : First 60) (fifth : Vector U32 60 → Nat → Nat → L U32) (tail : First 60) (e : Endian) (key : Vector U8 32) : L (Vector U32 60) := do
  let columns : Vector U32 60 := Vector.replicate 60 0
  let columns ← load_columns e key.toList columns
  let columns ← forEach (rangeStep 0 48 8) (step_256 first fifth) columns
  let columns ← upd .data columns 56 (← tail columns 48 55 6)
  let columns ← upd .data columns 57 (← xor (← idx .data columns 49) (← idx .data columns 56))
  let columns ← upd .data columns 58 (← xor (← idx .data columns 50) (← idx .data columns 57))
  let columns ← upd .data columns 59 (← xor (← idx .data columns 51) (← idx .data columns 58))
  pure columns
end Columns
end Aes.Leak
