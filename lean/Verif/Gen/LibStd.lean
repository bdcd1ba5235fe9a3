import Verif.Gen.Core
import Verif.Model.Fmt
/-
src/lib.rs, function by function, with the branch of its lines 333-426 for targets without `pre_enc`.
Generated by tools/rust2lean.py; do not edit.
-/
namespace RustSrc.Lib.Std
open Rust
open RustSrc.Core
open Aes.Fmt (Action done write andThen withM forEach u8Binary u8LowerHex u8UpperHex debugTuple debugList debugStruct1)
variable [Cfg] {B X2 X4 : Type} [Aes.AesBlock B] [Aes.AesBlockX2 B X2] [Aes.AesBlockX4 B X2 X4]

/-- src/lib.rs:144-146 `from`. -/
def AesBlock.from_u128 (value : U128) : M B :=
  Aes.AesVec.from_bytes (toBe 16 value)

/-- src/lib.rs:183-187,213 `from`. -/
def AesBlock.into_bytes (value : B) : M (Vector U8 16) := do
  let dst : Vector U8 16 := Vector.replicate 16 0#8
  let dst ← withSlice dst (fun s => Aes.AesVec.store_to value s)
  pure dst

/-- src/lib.rs:151-153 `from`. -/
def AesBlock.into_u128 (value : B) : M U128 := do
  pure (fromBe 128 (← AesBlock.into_bytes value))

/-- src/lib.rs:160-162,213 `default`. -/
def AesBlock.default_ : B :=
  Aes.AesVec.zero

/-- src/lib.rs:167-169,213 `from`. -/
def AesBlock.from_ref (value : Vector U8 16) : M B :=
  Aes.AesVec.from_bytes value

/-- src/lib.rs:176-178,213 `try_from`. -/
def AesBlock.try_from (value : List U8) : M (Except Nat B) :=
  try_from_slice 16 Aes.AesVec.from_bytes value

/-- src/lib.rs:192-194,213 `bitand_assign`. -/
def AesBlock.bitand_assign (self : B) (rhs : B) : B :=
  let self := Aes.AesVec.bitand self rhs
  self

/-- src/lib.rs:199-201,213 `bitor_assign`. -/
def AesBlock.bitor_assign (self : B) (rhs : B) : B :=
  let self := Aes.AesVec.bitor self rhs
  self

/-- src/lib.rs:206-208,213 `bitxor_assign`. -/
def AesBlock.bitxor_assign (self : B) (rhs : B) : B :=
  let self := Aes.AesVec.bitxor self rhs
  self

/-- src/lib.rs:160-162,213 `default`. -/
def AesBlockX2.default_ : X2 :=
  Aes.AesVec.zero

/-- src/lib.rs:167-169,213 `from`. -/
def AesBlockX2.from_ref (value : Vector U8 32) : M X2 :=
  Aes.AesVec.from_bytes value

/-- src/lib.rs:176-178,213 `try_from`. -/
def AesBlockX2.try_from (value : List U8) : M (Except Nat X2) :=
  try_from_slice 32 Aes.AesVec.from_bytes value

/-- src/lib.rs:183-187,213 `from`. -/
def AesBlockX2.into_bytes (value : X2) : M (Vector U8 32) := do
  let dst : Vector U8 32 := Vector.replicate 32 0#8
  let dst ← withSlice dst (fun s => Aes.AesVec.store_to value s)
  pure dst

/-- src/lib.rs:192-194,213 `bitand_assign`. -/
def AesBlockX2.bitand_assign (self : X2) (rhs : X2) : X2 :=
  let self := Aes.AesVec.bitand self rhs
  self

/-- src/lib.rs:199-201,213 `bitor_assign`. -/
def AesBlockX2.bitor_assign (self : X2) (rhs : X2) : X2 :=
  let self := Aes.AesVec.bitor self rhs
  self

/-- src/lib.rs:206-208,213 `bitxor_assign`. -/
def AesBlockX2.bitxor_assign (self : X2) (rhs : X2) : X2 :=
  let self := Aes.AesVec.bitxor self rhs
  self

/-- src/lib.rs:160-162,213 `default`. -/
def AesBlockX4.default_ : X4 :=
  Aes.AesVec.zero

/-- src/lib.rs:167-169,213 `from`. -/
def AesBlockX4.from_ref (value : Vector U8 64) : M X4 :=
  Aes.AesVec.from_bytes value

/-- src/lib.rs:176-178,213 `try_from`. -/
def AesBlockX4.try_from (value : List U8) : M (Except Nat X4) :=
  try_from_slice 64 Aes.AesVec.from_bytes value

/-- src/lib.rs:183-187,213 `from`. -/
def AesBlockX4.into_bytes (value : X4) : M (Vector U8 64) := do
  let dst : Vector U8 64 := Vector.replicate 64 0#8
  let dst ← withSlice dst (fun s => Aes.AesVec.store_to value s)
  pure dst

/-- src/lib.rs:192-194,213 `bitand_assign`. -/
def AesBlockX4.bitand_assign (self : X4) (rhs : X4) : X4 :=
  let self := Aes.AesVec.bitand self rhs
  self

/-- src/lib.rs:199-201,213 `bitor_assign`. -/
def AesBlockX4.bitor_assign (self : X4) (rhs : X4) : X4 :=
  let self := Aes.AesVec.bitor self rhs
  self

/-- src/lib.rs:206-208,213 `bitxor_assign`. -/
def AesBlockX4.bitxor_assign (self : X4) (rhs : X4) : X4 :=
  let self := Aes.AesVec.bitxor self rhs
  self

/-- src/lib.rs:312-320 `dec_round_keys`. -/
def dec_round_keys (N : Nat) (enc_round_keys : Vector B N) : M (Vector B N) := do
  let drk : Vector B N := Vector.replicate N Aes.AesVec.zero
  let drk ← upd drk 0 (← idx enc_round_keys (← Aes.Profile.usub Cfg.profile N 1))
  let drk ← (rangeStep 1 (← Aes.Profile.usub Cfg.profile N 1) 1).foldlM (fun drk i => do
      let drk ← upd drk i (Aes.AesBlock.imc (← idx enc_round_keys (← Aes.Profile.usub Cfg.profile (← Aes.Profile.usub Cfg.profile N 1) i)))
      pure drk) drk
  let drk ← upd drk (← Aes.Profile.usub Cfg.profile N 1) (← idx enc_round_keys 0)
  pure drk

/-- src/lib.rs:323-331 `enc_round_keys`. -/
def enc_round_keys (N : Nat) (dec_round_keys : Vector B N) : M (Vector B N) := do
  let rk : Vector B N := Vector.replicate N Aes.AesVec.zero
  let rk ← upd rk 0 (← idx dec_round_keys (← Aes.Profile.usub Cfg.profile N 1))
  let rk ← (rangeStep 1 (← Aes.Profile.usub Cfg.profile N 1) 1).foldlM (fun rk i => do
      let rk ← upd rk i (Aes.AesBlock.mc (← idx dec_round_keys (← Aes.Profile.usub Cfg.profile (← Aes.Profile.usub Cfg.profile N 1) i)))
      pure rk) rk
  let rk ← upd rk (← Aes.Profile.usub Cfg.profile N 1) (← idx dec_round_keys 0)
  pure rk

/-- src/lib.rs:400-408,426 `chain_enc`. -/
def AesBlock.chain_enc (self : B) (keys : List B) : M B := do
  assert (keys.length != 0)
  let acc : B := Aes.AesVec.bitxor self (← sidx keys 0)
  let acc := (← sliceFrom keys 1).foldl (fun acc key => 
      let acc := Aes.AesVec.enc acc key
      acc) acc
  pure acc

/-- src/lib.rs:411-419,426 `chain_dec`. -/
def AesBlock.chain_dec (self : B) (keys : List B) : M B := do
  assert (keys.length != 0)
  let acc : B := Aes.AesVec.bitxor self (← sidx keys 0)
  let acc := (← sliceFrom keys 1).foldl (fun acc key => 
      let acc := Aes.AesVec.dec acc key
      acc) acc
  pure acc

/-- src/lib.rs:400-408,426 `chain_enc`. -/
def AesBlockX2.chain_enc (self : X2) (keys : List X2) : M X2 := do
  assert (keys.length != 0)
  let acc : X2 := Aes.AesVec.bitxor self (← sidx keys 0)
  let acc := (← sliceFrom keys 1).foldl (fun acc key => 
      let acc := Aes.AesVec.enc acc key
      acc) acc
  pure acc

/-- src/lib.rs:411-419,426 `chain_dec`. -/
def AesBlockX2.chain_dec (self : X2) (keys : List X2) : M X2 := do
  assert (keys.length != 0)
  let acc : X2 := Aes.AesVec.bitxor self (← sidx keys 0)
  let acc := (← sliceFrom keys 1).foldl (fun acc key => 
      let acc := Aes.AesVec.dec acc key
      acc) acc
  pure acc

/-- src/lib.rs:400-408,426 `chain_enc`. -/
def AesBlockX4.chain_enc (self : X4) (keys : List X4) : M X4 := do
  assert (keys.length != 0)
  let acc : X4 := Aes.AesVec.bitxor self (← sidx keys 0)
  let acc := (← sliceFrom keys 1).foldl (fun acc key => 
      let acc := Aes.AesVec.enc acc key
      acc) acc
  pure acc

/-- src/lib.rs:411-419,426 `chain_dec`. -/
def AesBlockX4.chain_dec (self : X4) (keys : List X4) : M X4 := do
  assert (keys.length != 0)
  let acc : X4 := Aes.AesVec.bitxor self (← sidx keys 0)
  let acc := (← sliceFrom keys 1).foldl (fun acc key => 
      let acc := Aes.AesVec.dec acc key
      acc) acc
  pure acc

/-- src/lib.rs:438-442,520 `from`. -/
def Aes128Enc.from (value : Vector U8 16) : M (Aes.AesEnc B 10) := do
  pure ({ round_keys := (← Aes.AesBlock.keygen_128 value) : Aes.AesEnc B 10 })

/-- src/lib.rs:461-465,520 `decrypter`. -/
def Aes128Enc.decrypter (self : Aes.AesEnc B 10) : M (Aes.AesDec B 10) := do
  pure ({ round_keys := (← dec_round_keys 11 self.round_keys) : Aes.AesDec B 10 })

/-- src/lib.rs:453-455,520 `from`. -/
def Aes128Dec.from (value : Vector U8 16) : M (Aes.AesDec B 10) := do
  Aes128Enc.decrypter (← Aes128Enc.from value)

/-- src/lib.rs:467-471,520 `encrypt_block`. -/
def Aes128Enc.encrypt_block (self : Aes.AesEnc B 10) (plaintext : B) : M B := do
  pure (Aes.AesVec.enc_last (← AesBlock.chain_enc plaintext (← sliceTo self.round_keys.toList 10)) self.round_keys[10])

/-- src/lib.rs:473-478,520 `encrypt_2_blocks`. -/
def Aes128Enc.encrypt_2_blocks (self : Aes.AesEnc B 10) (plaintext : X2) : M X2 := do
  let round_keys : Vector X2 11 := Vector.map Aes.AesBlockX2.from_block self.round_keys
  pure (Aes.AesVec.enc_last (← AesBlockX2.chain_enc plaintext (← sliceTo round_keys.toList 10)) round_keys[10])

/-- src/lib.rs:480-485,520 `encrypt_4_blocks`. -/
def Aes128Enc.encrypt_4_blocks (self : Aes.AesEnc B 10) (plaintext : X4) : M X4 := do
  let round_keys : Vector X4 11 := Vector.map Aes.AesBlockX4.from_block self.round_keys
  pure (Aes.AesVec.enc_last (← AesBlockX4.chain_enc plaintext (← sliceTo round_keys.toList 10)) round_keys[10])

/-- src/lib.rs:491-495,520 `encrypter`. -/
def Aes128Dec.encrypter (self : Aes.AesDec B 10) : M (Aes.AesEnc B 10) := do
  pure ({ round_keys := (← enc_round_keys 11 self.round_keys) : Aes.AesEnc B 10 })

/-- src/lib.rs:497-501,520 `decrypt_block`. -/
def Aes128Dec.decrypt_block (self : Aes.AesDec B 10) (ciphertext : B) : M B := do
  pure (Aes.AesVec.dec_last (← AesBlock.chain_dec ciphertext (← sliceTo self.round_keys.toList 10)) self.round_keys[10])

/-- src/lib.rs:503-508,520 `decrypt_2_blocks`. -/
def Aes128Dec.decrypt_2_blocks (self : Aes.AesDec B 10) (ciphertext : X2) : M X2 := do
  let round_keys : Vector X2 11 := Vector.map Aes.AesBlockX2.from_block self.round_keys
  pure (Aes.AesVec.dec_last (← AesBlockX2.chain_dec ciphertext (← sliceTo round_keys.toList 10)) round_keys[10])

/-- src/lib.rs:510-515,520 `decrypt_4_blocks`. -/
def Aes128Dec.decrypt_4_blocks (self : Aes.AesDec B 10) (ciphertext : X4) : M X4 := do
  let round_keys : Vector X4 11 := Vector.map Aes.AesBlockX4.from_block self.round_keys
  pure (Aes.AesVec.dec_last (← AesBlockX4.chain_dec ciphertext (← sliceTo round_keys.toList 10)) round_keys[10])

/-- src/lib.rs:438-442,521 `from`. -/
def Aes192Enc.from (value : Vector U8 24) : M (Aes.AesEnc B 12) := do
  pure ({ round_keys := (← Aes.AesBlock.keygen_192 value) : Aes.AesEnc B 12 })

/-- src/lib.rs:461-465,521 `decrypter`. -/
def Aes192Enc.decrypter (self : Aes.AesEnc B 12) : M (Aes.AesDec B 12) := do
  pure ({ round_keys := (← dec_round_keys 13 self.round_keys) : Aes.AesDec B 12 })

/-- src/lib.rs:453-455,521 `from`. -/
def Aes192Dec.from (value : Vector U8 24) : M (Aes.AesDec B 12) := do
  Aes192Enc.decrypter (← Aes192Enc.from value)

/-- src/lib.rs:467-471,521 `encrypt_block`. -/
def Aes192Enc.encrypt_block (self : Aes.AesEnc B 12) (plaintext : B) : M B := do
  pure (Aes.AesVec.enc_last (← AesBlock.chain_enc plaintext (← sliceTo self.round_keys.toList 12)) self.round_keys[12])

/-- src/lib.rs:473-478,521 `encrypt_2_blocks`. -/
def Aes192Enc.encrypt_2_blocks (self : Aes.AesEnc B 12) (plaintext : X2) : M X2 := do
  let round_keys : Vector X2 13 := Vector.map Aes.AesBlockX2.from_block self.round_keys
  pure (Aes.AesVec.enc_last (← AesBlockX2.chain_enc plaintext (← sliceTo round_keys.toList 12)) round_keys[12])

/-- src/lib.rs:480-485,521 `encrypt_4_blocks`. -/
def Aes192Enc.encrypt_4_blocks (self : Aes.AesEnc B 12) (plaintext : X4) : M X4 := do
  let round_keys : Vector X4 13 := Vector.map Aes.AesBlockX4.from_block self.round_keys
  pure (Aes.AesVec.enc_last (← AesBlockX4.chain_enc plaintext (← sliceTo round_keys.toList 12)) round_keys[12])

/-- src/lib.rs:491-495,521 `encrypter`. -/
def Aes192Dec.encrypter (self : Aes.AesDec B 12) : M (Aes.AesEnc B 12) := do
  pure ({ round_keys := (← enc_round_keys 13 self.round_keys) : Aes.AesEnc B 12 })

/-- src/lib.rs:497-501,521 `decrypt_block`. -/
def Aes192Dec.decrypt_block (self : Aes.AesDec B 12) (ciphertext : B) : M B := do
  pure (Aes.AesVec.dec_last (← AesBlock.chain_dec ciphertext (← sliceTo self.round_keys.toList 12)) self.round_keys[12])

/-- src/lib.rs:503-508,521 `decrypt_2_blocks`. -/
def Aes192Dec.decrypt_2_blocks (self : Aes.AesDec B 12) (ciphertext : X2) : M X2 := do
  let round_keys : Vector X2 13 := Vector.map Aes.AesBlockX2.from_block self.round_keys
  pure (Aes.AesVec.dec_last (← AesBlockX2.chain_dec ciphertext (← sliceTo round_keys.toList 12)) round_keys[12])

/-- src/lib.rs:510-515,521 `decrypt_4_blocks`. -/
def Aes192Dec.decrypt_4_blocks (self : Aes.AesDec B 12) (ciphertext : X4) : M X4 := do
  let round_keys : Vector X4 13 := Vector.map Aes.AesBlockX4.from_block self.round_keys
  pure (Aes.AesVec.dec_last (← AesBlockX4.chain_dec ciphertext (← sliceTo round_keys.toList 12)) round_keys[12])

/-- src/lib.rs:438-442,522 `from`. -/
def Aes256Enc.from (value : Vector U8 32) : M (Aes.AesEnc B 14) := do
  pure ({ round_keys := (← Aes.AesBlock.keygen_256 value) : Aes.AesEnc B 14 })

/-- src/lib.rs:461-465,522 `decrypter`. -/
def Aes256Enc.decrypter (self : Aes.AesEnc B 14) : M (Aes.AesDec B 14) := do
  pure ({ round_keys := (← dec_round_keys 15 self.round_keys) : Aes.AesDec B 14 })

/-- src/lib.rs:453-455,522 `from`. -/
def Aes256Dec.from (value : Vector U8 32) : M (Aes.AesDec B 14) := do
  Aes256Enc.decrypter (← Aes256Enc.from value)

/-- src/lib.rs:467-471,522 `encrypt_block`. -/
def Aes256Enc.encrypt_block (self : Aes.AesEnc B 14) (plaintext : B) : M B := do
  pure (Aes.AesVec.enc_last (← AesBlock.chain_enc plaintext (← sliceTo self.round_keys.toList 14)) self.round_keys[14])

/-- src/lib.rs:473-478,522 `encrypt_2_blocks`. -/
def Aes256Enc.encrypt_2_blocks (self : Aes.AesEnc B 14) (plaintext : X2) : M X2 := do
  let round_keys : Vector X2 15 := Vector.map Aes.AesBlockX2.from_block self.round_keys
  pure (Aes.AesVec.enc_last (← AesBlockX2.chain_enc plaintext (← sliceTo round_keys.toList 14)) round_keys[14])

/-- src/lib.rs:480-485,522 `encrypt_4_blocks`. -/
def Aes256Enc.encrypt_4_blocks (self : Aes.AesEnc B 14) (plaintext : X4) : M X4 := do
  let round_keys : Vector X4 15 := Vector.map Aes.AesBlockX4.from_block self.round_keys
  pure (Aes.AesVec.enc_last (← AesBlockX4.chain_enc plaintext (← sliceTo round_keys.toList 14)) round_keys[14])

/-- src/lib.rs:491-495,522 `encrypter`. -/
def Aes256Dec.encrypter (self : Aes.AesDec B 14) : M (Aes.AesEnc B 14) := do
  pure ({ round_keys := (← enc_round_keys 15 self.round_keys) : Aes.AesEnc B 14 })

/-- src/lib.rs:497-501,522 `decrypt_block`. -/
def Aes256Dec.decrypt_block (self : Aes.AesDec B 14) (ciphertext : B) : M B := do
  pure (Aes.AesVec.dec_last (← AesBlock.chain_dec ciphertext (← sliceTo self.round_keys.toList 14)) self.round_keys[14])

/-- src/lib.rs:503-508,522 `decrypt_2_blocks`. -/
def Aes256Dec.decrypt_2_blocks (self : Aes.AesDec B 14) (ciphertext : X2) : M X2 := do
  let round_keys : Vector X2 15 := Vector.map Aes.AesBlockX2.from_block self.round_keys
  pure (Aes.AesVec.dec_last (← AesBlockX2.chain_dec ciphertext (← sliceTo round_keys.toList 14)) round_keys[14])

/-- src/lib.rs:510-515,522 `decrypt_4_blocks`. -/
def Aes256Dec.decrypt_4_blocks (self : Aes.AesDec B 14) (ciphertext : X4) : M X4 := do
  let round_keys : Vector X4 15 := Vector.map Aes.AesBlockX4.from_block self.round_keys
  pure (Aes.AesVec.dec_last (← AesBlockX4.chain_dec ciphertext (← sliceTo round_keys.toList 14)) round_keys[14])

/-- src/lib.rs:256-264 `fmt`, `impl UpperHex for AesBlock`. -/
def AesBlock.UpperHex.fmt (self : B) (f : Aes.Fmt.Opts) : Aes.Fmt.Action :=
  andThen (if f.alternate then andThen (write ['0', 'X']) done else done)
    (andThen (withM (AesBlock.into_bytes self) fun it => forEach it.toList fun x => andThen (u8UpperHex { align := some .right, zeroPad := true, width := some 2 } x) done)
    done)

/-- src/lib.rs:244-252 `fmt`, `impl LowerHex for AesBlock`. -/
def AesBlock.LowerHex.fmt (self : B) (f : Aes.Fmt.Opts) : Aes.Fmt.Action :=
  andThen (if f.alternate then andThen (write ['0', 'x']) done else done)
    (andThen (withM (AesBlock.into_bytes self) fun it => forEach it.toList fun x => andThen (u8LowerHex { align := some .right, zeroPad := true, width := some 2 } x) done)
    done)

/-- src/lib.rs:222-228 `fmt`, `impl Display for AesBlock`. -/
def AesBlock.Display.fmt (self : B) (f : Aes.Fmt.Opts) : Aes.Fmt.Action :=
  if f.alternate then AesBlock.UpperHex.fmt self {} else AesBlock.LowerHex.fmt self {}

/-- src/lib.rs:216-218 `fmt`, `impl Debug for AesBlock`. -/
def AesBlock.Debug.fmt (self : B) (f : Aes.Fmt.Opts) : Aes.Fmt.Action :=
  AesBlock.Display.fmt self f

/-- src/lib.rs:232-240 `fmt`, `impl Binary for AesBlock`. -/
def AesBlock.Binary.fmt (self : B) (f : Aes.Fmt.Opts) : Aes.Fmt.Action :=
  andThen (if f.alternate then andThen (write ['0', 'b']) done else done)
    (andThen (withM (AesBlock.into_bytes self) fun it => forEach it.toList fun digit => andThen (u8Binary { align := some .right, zeroPad := true, width := some 8 } digit) done)
    done)

/-- src/lib.rs:268-270 `fmt`, `impl Debug for AesBlockX2`. -/
def AesBlockX2.Debug.fmt (self : X2) (f : Aes.Fmt.Opts) : Aes.Fmt.Action :=
  debugTuple f [AesBlock.Debug.fmt ((Aes.AesBlockX2.to_pair self).1), AesBlock.Debug.fmt ((Aes.AesBlockX2.to_pair self).2)]

/-- src/lib.rs:274-276 `fmt`, `impl Debug for AesBlockX4`. -/
def AesBlockX4.Debug.fmt (self : X4) (f : Aes.Fmt.Opts) : Aes.Fmt.Action :=
  debugTuple f [AesBlock.Debug.fmt ((Aes.AesBlockX4.to_quad self).1), AesBlock.Debug.fmt ((Aes.AesBlockX4.to_quad self).2.1), AesBlock.Debug.fmt ((Aes.AesBlockX4.to_quad self).2.2.1), AesBlock.Debug.fmt ((Aes.AesBlockX4.to_quad self).2.2.2)]

/-- src/lib.rs:430-433,520 `#[derive(Debug)]`, `impl Debug for Aes128Enc`. -/
def Aes128Enc.Debug.fmt (self : Aes.AesEnc B 10) (f : Aes.Fmt.Opts) : Aes.Fmt.Action :=
  debugStruct1 f ['A', 'e', 's', '1', '2', '8', 'E', 'n', 'c']
    ['r', 'o', 'u', 'n', 'd', '_', 'k', 'e', 'y', 's']
    (fun f => debugList f (self.round_keys.toList.map fun x => AesBlock.Debug.fmt x))

/-- src/lib.rs:445-448,520 `#[derive(Debug)]`, `impl Debug for Aes128Dec`. -/
def Aes128Dec.Debug.fmt (self : Aes.AesDec B 10) (f : Aes.Fmt.Opts) : Aes.Fmt.Action :=
  debugStruct1 f ['A', 'e', 's', '1', '2', '8', 'D', 'e', 'c']
    ['r', 'o', 'u', 'n', 'd', '_', 'k', 'e', 'y', 's']
    (fun f => debugList f (self.round_keys.toList.map fun x => AesBlock.Debug.fmt x))

/-- src/lib.rs:430-433,521 `#[derive(Debug)]`, `impl Debug for Aes192Enc`. -/
def Aes192Enc.Debug.fmt (self : Aes.AesEnc B 12) (f : Aes.Fmt.Opts) : Aes.Fmt.Action :=
  debugStruct1 f ['A', 'e', 's', '1', '9', '2', 'E', 'n', 'c']
    ['r', 'o', 'u', 'n', 'd', '_', 'k', 'e', 'y', 's']
    (fun f => debugList f (self.round_keys.toList.map fun x => AesBlock.Debug.fmt x))

/-- src/lib.rs:445-448,521 `#[derive(Debug)]`, `impl Debug for Aes192Dec`. -/
def Aes192Dec.Debug.fmt (self : Aes.AesDec B 12) (f : Aes.Fmt.Opts) : Aes.Fmt.Action :=
  debugStruct1 f ['A', 'e', 's', '1', '9', '2', 'D', 'e', 'c']
    ['r', 'o', 'u', 'n', 'd', '_', 'k', 'e', 'y', 's']
    (fun f => debugList f (self.round_keys.toList.map fun x => AesBlock.Debug.fmt x))

/-- src/lib.rs:430-433,522 `#[derive(Debug)]`, `impl Debug for Aes256Enc`. -/
def Aes256Enc.Debug.fmt (self : Aes.AesEnc B 14) (f : Aes.Fmt.Opts) : Aes.Fmt.Action :=
  debugStruct1 f ['A', 'e', 's', '2', '5', '6', 'E', 'n', 'c']
    ['r', 'o', 'u', 'n', 'd', '_', 'k', 'e', 'y', 's']
    (fun f => debugList f (self.round_keys.toList.map fun x => AesBlock.Debug.fmt x))

/-- src/lib.rs:445-448,522 `#[derive(Debug)]`, `impl Debug for Aes256Dec`. -/
def Aes256Dec.Debug.fmt (self : Aes.AesDec B 14) (f : Aes.Fmt.Opts) : Aes.Fmt.Action :=
  debugStruct1 f ['A', 'e', 's', '2', '5', '6', 'D', 'e', 'c']
    ['r', 'o', 'u', 'n', 'd', '_', 'k', 'e', 'y', 's']
    (fun f => debugList f (self.round_keys.toList.map fun x => AesBlock.Debug.fmt x))

end RustSrc.Lib.Std
