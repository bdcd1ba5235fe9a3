import Verif.Model.Api
/-
Model of src/lib.rs (everything except the cfg ladders, which are in Verif/Model/Config.lean,
and formatting, which is in Verif/Model/Fmt.lean).
-/
namespace Aes
open Rust

/-- src/lib.rs:137-140 `array_from_slice`. The raw read is undefined behaviour when out of bounds
(in a debug build the `debug_assert!` of line 138 turns that into a panic; the model keeps the
release behaviour, the worse of the two). -/
def array_from_slice (n : Nat) (value : List U8) (offset : Nat) : M (Vector U8 n) :=
  rawRead value offset n

/-- src/lib.rs:127-133 `try_from_slice`; the `From<[u8; N]>` impl of the target type is a parameter,
as the trait bound is in the code. -/
def try_from_slice {T : Type} (n : Nat) (from_ : Vector U8 n → M T) (value : List U8) :
    M (Except Nat T) :=
  if value.length ≥ n then do
    let t ← from_ (← array_from_slice n value 0)
    pure (.ok t)
  else
    pure (.error value.length)

section common
variable {T : Type} {n : Nat} [AesVec T n]
open AesVec

/-- src/lib.rs:158-163 `impl Default`. -/
def default_ : T := zero

/-- src/lib.rs:165-170 `impl From<&[u8; N]>`. -/
def from_ref (value : Vector U8 n) : M T := from_bytes value

/-- src/lib.rs:172-179 `impl TryFrom<&[u8]>`. -/
def try_from (value : List U8) : M (Except Nat T) := try_from_slice n from_bytes value

/-- src/lib.rs:181-188 `impl From<T> for [u8; N]`: store into a zeroed array. -/
def into_bytes (value : T) : M (Vector U8 n) := do
  let dst ← store_to value (List.replicate n 0#8)
  arrayTryFrom n dst

/-- src/lib.rs:190-195 `BitAndAssign`. -/
def bitand_assign (self rhs : T) : T := bitand self rhs
/-- src/lib.rs:197-202 `BitOrAssign`. -/
def bitor_assign (self rhs : T) : T := bitor self rhs
/-- src/lib.rs:204-209 `BitXorAssign`. -/
def bitxor_assign (self rhs : T) : T := bitxor self rhs

/-- src/lib.rs:372-380: `chain_enc` on targets with `pre_enc`. `assert_ne!`, then
`pre_enc` with every key but the last (`&keys[..keys.len() - 1]`), then `^ keys[keys.len() - 1]`. -/
def chain_enc_pre (p : Pre T) (self : T) (keys : List T) : M T := do
  assert (keys.length != 0)
  let ks ← sliceTo keys (keys.length - 1)
  let acc := ks.foldl (fun acc key => p.pre_enc acc key) self
  let last ← sidx keys (keys.length - 1)
  pure (bitxor acc last)

/-- src/lib.rs:383-391: `chain_dec` on targets with `pre_dec`. -/
def chain_dec_pre (p : Pre T) (self : T) (keys : List T) : M T := do
  assert (keys.length != 0)
  let ks ← sliceTo keys (keys.length - 1)
  let acc := ks.foldl (fun acc key => p.pre_dec acc key) self
  let last ← sidx keys (keys.length - 1)
  pure (bitxor acc last)

/-- src/lib.rs:400-408: `chain_enc` on the other targets. -/
def chain_enc_std (self : T) (keys : List T) : M T := do
  assert (keys.length != 0)
  let k0 ← sidx keys 0
  let ks ← sliceFrom keys 1
  pure (ks.foldl (fun acc key => enc acc key) (bitxor self k0))

/-- src/lib.rs:411-419: `chain_dec` on the other targets. -/
def chain_dec_std (self : T) (keys : List T) : M T := do
  assert (keys.length != 0)
  let k0 ← sidx keys 0
  let ks ← sliceFrom keys 1
  pure (ks.foldl (fun acc key => dec acc key) (bitxor self k0))

/-- `chain_enc` as the configuration provides it (src/lib.rs:333-426): the `cfg` of lines 334-347
picks the `pre_enc` version. In a configuration that compiles this is exactly where the selected
`AesBlock` has `pre_enc` (see theorem `C33_chain_pre` for the comparison of the two cfg conditions). -/
def chain_enc (self : T) (keys : List T) : M T :=
  match (pre : Option (Pre T)) with
  | some p => chain_enc_pre p self keys
  | none => chain_enc_std self keys

/-- `chain_dec` as the configuration provides it (src/lib.rs:333-426). -/
def chain_dec (self : T) (keys : List T) : M T :=
  match (pre : Option (Pre T)) with
  | some p => chain_dec_pre p self keys
  | none => chain_dec_std self keys

end common

/-- src/lib.rs:348-366 `impl_pre_encdec!` for `AesBlockX2` and `AesBlockX4`: component-wise, through the
conversions to and from the pair of halves (`U` is `AesBlock` for X2 and `AesBlockX2` for X4). -/
def impl_pre_encdec {T U : Type} (into : T → U × U) (from_ : U × U → T) (p : Pre U) : Pre T where
  pre_enc := fun self round_key =>
    let (a, b) := into self
    let (rk_a, rk_b) := into round_key
    from_ (p.pre_enc a rk_a, p.pre_enc b rk_b)
  pre_dec := fun self round_key =>
    let (a, b) := into self
    let (rk_a, rk_b) := into round_key
    from_ (p.pre_dec a rk_a, p.pre_dec b rk_b)

section block
variable {B : Type} [AesBlock B]
open AesVec AesBlock

/-- src/lib.rs:142-147 `From<u128> for AesBlock`: `value.to_be_bytes().into()`. -/
def from_u128 (value : U128) : M B := from_bytes (toBe 16 value)

/-- src/lib.rs:149-154 `From<AesBlock> for u128`: `u128::from_be_bytes(value.into())`. -/
def into_u128 (value : B) : M U128 := do pure (fromBe 128 (← into_bytes value))

/-- src/lib.rs:312-320 `dec_round_keys`. (`N - 1` cannot underflow: `N` is 11, 13 or 15.) -/
def dec_round_keys {N : Nat} (enc_round_keys : Vector B N) : M (Vector B N) := do
  let drk : Vector B N := Vector.replicate N zero
  let drk ← upd drk 0 (← idx enc_round_keys (N - 1))
  let drk ← (rangeStep 1 (N - 1) 1).foldlM (fun drk i => do
    upd drk i (imc (← idx enc_round_keys (N - 1 - i)))) drk
  upd drk (N - 1) (← idx enc_round_keys 0)

/-- src/lib.rs:323-331 `enc_round_keys`. -/
def enc_round_keys {N : Nat} (dec_round_keys : Vector B N) : M (Vector B N) := do
  let rk : Vector B N := Vector.replicate N zero
  let rk ← upd rk 0 (← idx dec_round_keys (N - 1))
  let rk ← (rangeStep 1 (N - 1) 1).foldlM (fun rk i => do
    upd rk i (mc (← idx dec_round_keys (N - 1 - i)))) rk
  upd rk (N - 1) (← idx dec_round_keys 0)

/-- src/lib.rs:430-433: the encrypter struct of `implement_aes!`, `nr` rounds. -/
structure AesEnc (B : Type) (nr : Nat) where
  round_keys : Vector B (nr + 1)

/-- src/lib.rs:445-448: the decrypter struct of `implement_aes!`, `nr` rounds. -/
structure AesDec (B : Type) (nr : Nat) where
  round_keys : Vector B (nr + 1)

/-- src/lib.rs:461-465 `decrypter`. -/
def AesEnc.decrypter {nr} (self : AesEnc B nr) : M (AesDec B nr) := do
  pure ⟨← dec_round_keys self.round_keys⟩

/-- src/lib.rs:491-495 `encrypter`. -/
def AesDec.encrypter {nr} (self : AesDec B nr) : M (AesEnc B nr) := do
  pure ⟨← enc_round_keys self.round_keys⟩

/-- src/lib.rs:467-471 `encrypt_block`. -/
def AesEnc.encrypt_block {nr} (self : AesEnc B nr) (plaintext : B) : M B := do
  let acc ← chain_enc plaintext (← sliceTo self.round_keys.toList nr)
  pure (enc_last acc (← idx self.round_keys nr))

/-- src/lib.rs:497-501 `decrypt_block`. -/
def AesDec.decrypt_block {nr} (self : AesDec B nr) (ciphertext : B) : M B := do
  let acc ← chain_dec ciphertext (← sliceTo self.round_keys.toList nr)
  pure (dec_last acc (← idx self.round_keys nr))

section x2
variable {X2 : Type} [AesBlockX2 B X2]

/-- src/lib.rs:473-478 `encrypt_2_blocks`: `self.round_keys.map(Into::into)` broadcasts every round key. -/
def AesEnc.encrypt_2_blocks {nr} (self : AesEnc B nr) (plaintext : X2) : M X2 := do
  let round_keys : Vector X2 (nr + 1) := self.round_keys.map AesBlockX2.from_block
  let acc ← chain_enc plaintext (← sliceTo round_keys.toList nr)
  pure (enc_last acc (← idx round_keys nr))

/-- src/lib.rs:503-508 `decrypt_2_blocks`. -/
def AesDec.decrypt_2_blocks {nr} (self : AesDec B nr) (ciphertext : X2) : M X2 := do
  let round_keys : Vector X2 (nr + 1) := self.round_keys.map AesBlockX2.from_block
  let acc ← chain_dec ciphertext (← sliceTo round_keys.toList nr)
  pure (dec_last acc (← idx round_keys nr))

end x2

section x4
variable {X2 X4 : Type} [AesBlockX4 B X2 X4]

/-- src/lib.rs:480-485 `encrypt_4_blocks`. -/
def AesEnc.encrypt_4_blocks {nr} (self : AesEnc B nr) (plaintext : X4) : M X4 := do
  let round_keys : Vector X4 (nr + 1) := self.round_keys.map AesBlockX4.from_block
  let acc ← chain_enc plaintext (← sliceTo round_keys.toList nr)
  pure (enc_last acc (← idx round_keys nr))

/-- src/lib.rs:510-515 `decrypt_4_blocks`. -/
def AesDec.decrypt_4_blocks {nr} (self : AesDec B nr) (ciphertext : X4) : M X4 := do
  let round_keys : Vector X4 (nr + 1) := self.round_keys.map AesBlockX4.from_block
  let acc ← chain_dec ciphertext (← sliceTo round_keys.toList nr)
  pure (dec_last acc (← idx round_keys nr))

end x4

/-- src/lib.rs:437-443,520 `Aes128Enc::from`. -/
def Aes128Enc.from (value : Vector U8 16) : M (AesEnc B 10) := do pure ⟨← keygen_128 value⟩
/-- src/lib.rs:437-443,521 `Aes192Enc::from`. -/
def Aes192Enc.from (value : Vector U8 24) : M (AesEnc B 12) := do pure ⟨← keygen_192 value⟩
/-- src/lib.rs:437-443,522 `Aes256Enc::from`. -/
def Aes256Enc.from (value : Vector U8 32) : M (AesEnc B 14) := do pure ⟨← keygen_256 value⟩

/-- src/lib.rs:452-456,520 `Aes128Dec::from`. -/
def Aes128Dec.from (value : Vector U8 16) : M (AesDec B 10) := do (← Aes128Enc.from value).decrypter
/-- src/lib.rs:452-456,521 `Aes192Dec::from`. -/
def Aes192Dec.from (value : Vector U8 24) : M (AesDec B 12) := do (← Aes192Enc.from value).decrypter
/-- src/lib.rs:452-456,522 `Aes256Dec::from`. -/
def Aes256Dec.from (value : Vector U8 32) : M (AesDec B 14) := do (← Aes256Enc.from value).decrypter

end block

end Aes
