import Verif.Gen.LeakCore
/-
src/lib.rs, function by function, with the trace of every call, with the branch of its lines 333-426 for targets with `pre_enc`; without formatting.
Generated by tools/rust2lean.py; do not edit.
-/
namespace RustSrc.Leak.Lib.Pre
open Rust
open RustSrc.Leak.Core
variable [Cfg] {B X2 X4 : Type} [Aes.AesBlock B] [Aes.AesBlockX2 B X2] [Aes.AesBlockX4 B X2 X4]
  [Aes.Leak.LBlock B] [Aes.Leak.LVec X2 32] [Aes.Leak.LVec X4 64] [LHasPre B]

/-- src/lib.rs:144-146 `from`. -/
def AesBlock.from_u128 (value : U128) : Aes.Leak.L B := do
  Aes.Leak.LVec.from_bytes (← Aes.Leak.emit .move (toBe 16 value))

/-- src/lib.rs:183-187,213 `from`. -/
def AesBlock.into_bytes (value : B) : Aes.Leak.L (Vector U8 16) := do
  let dst : Vector U8 16 := Vector.replicate 16 0#8
  let dst ← withSlice dst (fun s => Aes.Leak.LVec.store_to value s)
  pure dst

/-- src/lib.rs:151-153 `from`. -/
def AesBlock.into_u128 (value : B) : Aes.Leak.L U128 := do
  Aes.Leak.emit .move (fromBe 128 (← AesBlock.into_bytes value))

/-- src/lib.rs:160-162,213 `default`. -/
def AesBlock.default_ : Aes.Leak.L B :=
  Aes.Leak.LVec.zero

/-- src/lib.rs:167-169,213 `from`. -/
def AesBlock.from_ref (value : Vector U8 16) : Aes.Leak.L B :=
  Aes.Leak.LVec.from_bytes value

/-- src/lib.rs:176-178,213 `try_from`. -/
def AesBlock.try_from (value : List U8) : Aes.Leak.L (Except Nat B) :=
  try_from_slice 16 Aes.Leak.LVec.from_bytes value

/-- src/lib.rs:192-194,213 `bitand_assign`. -/
def AesBlock.bitand_assign (self : B) (rhs : B) : Aes.Leak.L B := do
  let self ← Aes.Leak.LVec.bitand self rhs
  pure self

/-- src/lib.rs:199-201,213 `bitor_assign`. -/
def AesBlock.bitor_assign (self : B) (rhs : B) : Aes.Leak.L B := do
  let self ← Aes.Leak.LVec.bitor self rhs
  pure self

/-- src/lib.rs:206-208,213 `bitxor_assign`. -/
def AesBlock.bitxor_assign (self : B) (rhs : B) : Aes.Leak.L B := do
  let self ← Aes.Leak.LVec.bitxor self rhs
  pure self

/-- src/lib.rs:160-162,213 `default`. -/
def AesBlockX2.default_ : Aes.Leak.L X2 :=
  Aes.Leak.LVec.zero

/-- src/lib.rs:167-169,213 `from`. -/
def AesBlockX2.from_ref (value : Vector U8 32) : Aes.Leak.L X2 :=
  Aes.Leak.LVec.from_bytes value

/-- src/lib.rs:176-178,213 `try_from`. -/
def AesBlockX2.try_from (value : List U8) : Aes.Leak.L (Except Nat X2) :=
  try_from_slice 32 Aes.Leak.LVec.from_bytes value

/-- src/lib.rs:183-187,213 `from`. -/
def AesBlockX2.into_bytes (value : X2) : Aes.Leak.L (Vector U8 32) := do
  let dst : Vector U8 32 := Vector.replicate 32 0#8
  let dst ← withSlice dst (fun s => Aes.Leak.LVec.store_to value s)
  pure dst

/-- src/lib.rs:192-194,213 `bitand_assign`. -/
def AesBlockX2.bitand_assign (self : X2) (rhs : X2) : Aes.Leak.L X2 := do
  let self ← Aes.Leak.LVec.bitand self rhs
  pure self

/-- src/lib.rs:199-201,213 `bitor_assign`. -/
def AesBlockX2.bitor_assign (self : X2) (rhs : X2) : Aes.Leak.L X2 := do
  let self ← Aes.Leak.LVec.bitor self rhs
  pure self

/-- src/lib.rs:206-208,213 `bitxor_assign`. -/
def AesBlockX2.bitxor_assign (self : X2) (rhs : X2) : Aes.Leak.L X2 := do
  let self ← Aes.Leak.LVec.bitxor self rhs
  pure self

/-- src/lib.rs:160-162,213 `default`. -/
def AesBlockX4.default_ : Aes.Leak.L X4 :=
  Aes.Leak.LVec.zero

/-- src/lib.rs:167-169,213 `from`. -/
def AesBlockX4.from_ref (value : Vector U8 64) : Aes.Leak.L X4 :=
  Aes.Leak.LVec.from_bytes value

/-- src/lib.rs:176-178,213 `try_from`. -/
def AesBlockX4.try_from (value : List U8) : Aes.Leak.L (Except Nat X4) :=
  try_from_slice 64 Aes.Leak.LVec.from_bytes value

/-- src/lib.rs:183-187,213 `from`. -/
def AesBlockX4.into_bytes (value : X4) : Aes.Leak.L (Vector U8 64) := do
  let dst : Vector U8 64 := Vector.replicate 64 0#8
  let dst ← withSlice dst (fun s => Aes.Leak.LVec.store_to value s)
  pure dst

/-- src/lib.rs:192-194,213 `bitand_assign`. -/
def AesBlockX4.bitand_assign (self : X4) (rhs : X4) : Aes.Leak.L X4 := do
  let self ← Aes.Leak.LVec.bitand self rhs
  pure self

/-- src/lib.rs:199-201,213 `bitor_assign`. -/
def AesBlockX4.bitor_assign (self : X4) (rhs : X4) : Aes.Leak.L X4 := do
  let self ← Aes.Leak.LVec.bitor self rhs
  pure self

/-- src/lib.rs:206-208,213 `bitxor_assign`. -/
def AesBlockX4.bitxor_assign (self : X4) (rhs : X4) : Aes.Leak.L X4 := do
  let self ← Aes.Leak.LVec.bitxor self rhs
  pure self

/-- src/lib.rs:312-320 `dec_round_keys`. -/
def dec_round_keys (N : Nat) (enc_round_keys : Vector B N) : Aes.Leak.L (Vector B N) := do
  let drk : Vector B N := Vector.replicate N (← Aes.Leak.LVec.zero)
  let drk ← Aes.Leak.upd .data drk 0 (← Aes.Leak.idx .data enc_round_keys (← quiet (Aes.Profile.usub Cfg.profile N 1)))
  let drk ← Aes.Leak.forEach (rangeStep 1 (← quiet (Aes.Profile.usub Cfg.profile N 1)) 1) (fun drk i => do
      let drk ← Aes.Leak.upd .data drk i (← Aes.Leak.LBlock.imc (← Aes.Leak.idx .data enc_round_keys (← quiet (Aes.Profile.usub Cfg.profile (← quiet (Aes.Profile.usub Cfg.profile N 1)) i))))
      pure drk) drk
  let drk ← Aes.Leak.upd .data drk (← quiet (Aes.Profile.usub Cfg.profile N 1)) (← Aes.Leak.idx .data enc_round_keys 0)
  pure drk

/-- src/lib.rs:323-331 `enc_round_keys`. -/
def enc_round_keys (N : Nat) (dec_round_keys : Vector B N) : Aes.Leak.L (Vector B N) := do
  let rk : Vector B N := Vector.replicate N (← Aes.Leak.LVec.zero)
  let rk ← Aes.Leak.upd .data rk 0 (← Aes.Leak.idx .data dec_round_keys (← quiet (Aes.Profile.usub Cfg.profile N 1)))
  let rk ← Aes.Leak.forEach (rangeStep 1 (← quiet (Aes.Profile.usub Cfg.profile N 1)) 1) (fun rk i => do
      let rk ← Aes.Leak.upd .data rk i (← Aes.Leak.LBlock.mc (← Aes.Leak.idx .data dec_round_keys (← quiet (Aes.Profile.usub Cfg.profile (← quiet (Aes.Profile.usub Cfg.profile N 1)) i))))
      pure rk) rk
  let rk ← Aes.Leak.upd .data rk (← quiet (Aes.Profile.usub Cfg.profile N 1)) (← Aes.Leak.idx .data dec_round_keys 0)
  pure rk

/-- src/lib.rs:351-355,366 `pre_enc`. -/
def AesBlockX2.pre_enc (self : X2) (round_key : X2) : Aes.Leak.L X2 := do
  let (a, b) := Aes.AesBlockX2.to_pair self
  let (rk_a, rk_b) := Aes.AesBlockX2.to_pair round_key
  pure (Aes.AesBlockX2.from_pair ((← LHasPre.pre_enc a rk_a), (← LHasPre.pre_enc b rk_b)))

/-- src/lib.rs:357-361,366 `pre_dec`. -/
def AesBlockX2.pre_dec (self : X2) (round_key : X2) : Aes.Leak.L X2 := do
  let (a, b) := Aes.AesBlockX2.to_pair self
  let (rk_a, rk_b) := Aes.AesBlockX2.to_pair round_key
  pure (Aes.AesBlockX2.from_pair ((← LHasPre.pre_dec a rk_a), (← LHasPre.pre_dec b rk_b)))

/-- src/lib.rs:351-355,366 `pre_enc`. -/
def AesBlockX4.pre_enc (self : X4) (round_key : X4) : Aes.Leak.L X4 := do
  let (a, b) := Aes.AesBlockX4.to_x2_pair self
  let (rk_a, rk_b) := Aes.AesBlockX4.to_x2_pair round_key
  pure (Aes.AesBlockX4.from_x2_pair ((← AesBlockX2.pre_enc a rk_a), (← AesBlockX2.pre_enc b rk_b)))

/-- src/lib.rs:357-361,366 `pre_dec`. -/
def AesBlockX4.pre_dec (self : X4) (round_key : X4) : Aes.Leak.L X4 := do
  let (a, b) := Aes.AesBlockX4.to_x2_pair self
  let (rk_a, rk_b) := Aes.AesBlockX4.to_x2_pair round_key
  pure (Aes.AesBlockX4.from_x2_pair ((← AesBlockX2.pre_dec a rk_a), (← AesBlockX2.pre_dec b rk_b)))

/-- src/lib.rs:372-380,426 `chain_enc`. -/
def AesBlock.chain_enc (self : B) (keys : List B) : Aes.Leak.L B := do
  Aes.Leak.assert (keys.length != 0)
  let acc : B := self
  let acc ← Aes.Leak.forEach (← Aes.Leak.sliceTo keys (← quiet (Aes.Profile.usub Cfg.profile keys.length 1))) (fun acc key => do
      let acc ← LHasPre.pre_enc acc key
      pure acc) acc
  Aes.Leak.LVec.bitxor acc (← Aes.Leak.sidx keys (← quiet (Aes.Profile.usub Cfg.profile keys.length 1)))

/-- src/lib.rs:383-391,426 `chain_dec`. -/
def AesBlock.chain_dec (self : B) (keys : List B) : Aes.Leak.L B := do
  Aes.Leak.assert (keys.length != 0)
  let acc : B := self
  let acc ← Aes.Leak.forEach (← Aes.Leak.sliceTo keys (← quiet (Aes.Profile.usub Cfg.profile keys.length 1))) (fun acc key => do
      let acc ← LHasPre.pre_dec acc key
      pure acc) acc
  Aes.Leak.LVec.bitxor acc (← Aes.Leak.sidx keys (← quiet (Aes.Profile.usub Cfg.profile keys.length 1)))

/-- src/lib.rs:372-380,426 `chain_enc`. -/
def AesBlockX2.chain_enc (self : X2) (keys : List X2) : Aes.Leak.L X2 := do
  Aes.Leak.assert (keys.length != 0)
  let acc : X2 := self
  let acc ← Aes.Leak.forEach (← Aes.Leak.sliceTo keys (← quiet (Aes.Profile.usub Cfg.profile keys.length 1))) (fun acc key => do
      let acc ← AesBlockX2.pre_enc acc key
      pure acc) acc
  Aes.Leak.LVec.bitxor acc (← Aes.Leak.sidx keys (← quiet (Aes.Profile.usub Cfg.profile keys.length 1)))

/-- src/lib.rs:383-391,426 `chain_dec`. -/
def AesBlockX2.chain_dec (self : X2) (keys : List X2) : Aes.Leak.L X2 := do
  Aes.Leak.assert (keys.length != 0)
  let acc : X2 := self
  let acc ← Aes.Leak.forEach (← Aes.Leak.sliceTo keys (← quiet (Aes.Profile.usub Cfg.profile keys.length 1))) (fun acc key => do
      let acc ← AesBlockX2.pre_dec acc key
      pure acc) acc
  Aes.Leak.LVec.bitxor acc (← Aes.Leak.sidx keys (← quiet (Aes.Profile.usub Cfg.profile keys.length 1)))

/-- src/lib.rs:372-380,426 `chain_enc`. -/
def AesBlockX4.chain_enc (self : X4) (keys : List X4) : Aes.Leak.L X4 := do
  Aes.Leak.assert (keys.length != 0)
  let acc : X4 := self
  let acc ← Aes.Leak.forEach (← Aes.Leak.sliceTo keys (← quiet (Aes.Profile.usub Cfg.profile keys.length 1))) (fun acc key => do
      let acc ← AesBlockX4.pre_enc acc key
      pure acc) acc
  Aes.Leak.LVec.bitxor acc (← Aes.Leak.sidx keys (← quiet (Aes.Profile.usub Cfg.profile keys.length 1)))

/-- src/lib.rs:383-391,426 `chain_dec`. -/
def AesBlockX4.chain_dec (self : X4) (keys : List X4) : Aes.Leak.L X4 := do
  Aes.Leak.assert (keys.length != 0)
  let acc : X4 := self
  let acc ← Aes.Leak.forEach (← Aes.Leak.sliceTo keys (← quiet (Aes.Profile.usub Cfg.profile keys.length 1))) (fun acc key => do
      let acc ← AesBlockX4.pre_dec acc key
      pure acc) acc
  Aes.Leak.LVec.bitxor acc (← Aes.Leak.sidx keys (← quiet (Aes.Profile.usub Cfg.profile keys.length 1)))

/-- src/lib.rs:438-442,520 `from`. -/
def Aes128Enc.from (value : Vector U8 16) : Aes.Leak.L (Aes.AesEnc B 10) := do
  pure ({ round_keys := (← Aes.Leak.LBlock.keygen_128 value) : Aes.AesEnc B 10 })

/-- src/lib.rs:461-465,520 `decrypter`. -/
def Aes128Enc.decrypter (self : Aes.AesEnc B 10) : Aes.Leak.L (Aes.AesDec B 10) := do
  pure ({ round_keys := (← dec_round_keys 11 self.round_keys) : Aes.AesDec B 10 })

/-- src/lib.rs:453-455,520 `from`. -/
def Aes128Dec.from (value : Vector U8 16) : Aes.Leak.L (Aes.AesDec B 10) := do
  Aes128Enc.decrypter (← Aes128Enc.from value)

/-- src/lib.rs:467-471,520 `encrypt_block`. -/
def Aes128Enc.encrypt_block (self : Aes.AesEnc B 10) (plaintext : B) : Aes.Leak.L B := do
  Aes.Leak.LVec.enc_last (← AesBlock.chain_enc plaintext (← Aes.Leak.sliceTo self.round_keys.toList 10)) (← Aes.Leak.idx .data self.round_keys 10)

/-- src/lib.rs:473-478,520 `encrypt_2_blocks`. -/
def Aes128Enc.encrypt_2_blocks (self : Aes.AesEnc B 10) (plaintext : X2) : Aes.Leak.L X2 := do
  let round_keys : Vector X2 11 := Vector.map Aes.AesBlockX2.from_block self.round_keys
  Aes.Leak.LVec.enc_last (← AesBlockX2.chain_enc plaintext (← Aes.Leak.sliceTo round_keys.toList 10)) (← Aes.Leak.idx .data round_keys 10)

/-- src/lib.rs:480-485,520 `encrypt_4_blocks`. -/
def Aes128Enc.encrypt_4_blocks (self : Aes.AesEnc B 10) (plaintext : X4) : Aes.Leak.L X4 := do
  let round_keys : Vector X4 11 := Vector.map Aes.AesBlockX4.from_block self.round_keys
  Aes.Leak.LVec.enc_last (← AesBlockX4.chain_enc plaintext (← Aes.Leak.sliceTo round_keys.toList 10)) (← Aes.Leak.idx .data round_keys 10)

/-- src/lib.rs:491-495,520 `encrypter`. -/
def Aes128Dec.encrypter (self : Aes.AesDec B 10) : Aes.Leak.L (Aes.AesEnc B 10) := do
  pure ({ round_keys := (← enc_round_keys 11 self.round_keys) : Aes.AesEnc B 10 })

/-- src/lib.rs:497-501,520 `decrypt_block`. -/
def Aes128Dec.decrypt_block (self : Aes.AesDec B 10) (ciphertext : B) : Aes.Leak.L B := do
  Aes.Leak.LVec.dec_last (← AesBlock.chain_dec ciphertext (← Aes.Leak.sliceTo self.round_keys.toList 10)) (← Aes.Leak.idx .data self.round_keys 10)

/-- src/lib.rs:503-508,520 `decrypt_2_blocks`. -/
def Aes128Dec.decrypt_2_blocks (self : Aes.AesDec B 10) (ciphertext : X2) : Aes.Leak.L X2 := do
  let round_keys : Vector X2 11 := Vector.map Aes.AesBlockX2.from_block self.round_keys
  Aes.Leak.LVec.dec_last (← AesBlockX2.chain_dec ciphertext (← Aes.Leak.sliceTo round_keys.toList 10)) (← Aes.Leak.idx .data round_keys 10)

/-- src/lib.rs:510-515,520 `decrypt_4_blocks`. -/
def Aes128Dec.decrypt_4_blocks (self : Aes.AesDec B 10) (ciphertext : X4) : Aes.Leak.L X4 := do
  let round_keys : Vector X4 11 := Vector.map Aes.AesBlockX4.from_block self.round_keys
  Aes.Leak.LVec.dec_last (← AesBlockX4.chain_dec ciphertext (← Aes.Leak.sliceTo round_keys.toList 10)) (← Aes.Leak.idx .data round_keys 10)

/-- src/lib.rs:438-442,521 `from`. -/
def Aes192Enc.from (value : Vector U8 24) : Aes.Leak.L (Aes.AesEnc B 12) := do
  pure ({ round_keys := (← Aes.Leak.LBlock.keygen_192 value) : Aes.AesEnc B 12 })

/-- src/lib.rs:461-465,521 `decrypter`. -/
def Aes192Enc.decrypter (self : Aes.AesEnc B 12) : Aes.Leak.L (Aes.AesDec B 12) := do
  pure ({ round_keys := (← dec_round_keys 13 self.round_keys) : Aes.AesDec B 12 })

/-- src/lib.rs:453-455,521 `from`. -/
def Aes192Dec.from (value : Vector U8 24) : Aes.Leak.L (Aes.AesDec B 12) := do
  Aes192Enc.decrypter (← Aes192Enc.from value)

/-- src/lib.rs:467-471,521 `encrypt_block`. -/
def Aes192Enc.encrypt_block (self : Aes.AesEnc B 12) (plaintext : B) : Aes.Leak.L B := do
  Aes.Leak.LVec.enc_last (← AesBlock.chain_enc plaintext (← Aes.Leak.sliceTo self.round_keys.toList 12)) (← Aes.Leak.idx .data self.round_keys 12)

/-- src/lib.rs:473-478,521 `encrypt_2_blocks`. -/
def Aes192Enc.encrypt_2_blocks (self : Aes.AesEnc B 12) (plaintext : X2) : Aes.Leak.L X2 := do
  let round_keys : Vector X2 13 := Vector.map Aes.AesBlockX2.from_block self.round_keys
  Aes.Leak.LVec.enc_last (← AesBlockX2.chain_enc plaintext (← Aes.Leak.sliceTo round_keys.toList 12)) (← Aes.Leak.idx .data round_keys 12)

/-- src/lib.rs:480-485,521 `encrypt_4_blocks`. -/
def Aes192Enc.encrypt_4_blocks (self : Aes.AesEnc B 12) (plaintext : X4) : Aes.Leak.L X4 := do
  let round_keys : Vector X4 13 := Vector.map Aes.AesBlockX4.from_block self.round_keys
  Aes.Leak.LVec.enc_last (← AesBlockX4.chain_enc plaintext (← Aes.Leak.sliceTo round_keys.toList 12)) (← Aes.Leak.idx .data round_keys 12)

/-- src/lib.rs:491-495,521 `encrypter`. -/
def Aes192Dec.encrypter (self : Aes.AesDec B 12) : Aes.Leak.L (Aes.AesEnc B 12) := do
  pure ({ round_keys := (← enc_round_keys 13 self.round_keys) : Aes.AesEnc B 12 })

/-- src/lib.rs:497-501,521 `decrypt_block`. -/
def Aes192Dec.decrypt_block (self : Aes.AesDec B 12) (ciphertext : B) : Aes.Leak.L B := do
  Aes.Leak.LVec.dec_last (← AesBlock.chain_dec ciphertext (← Aes.Leak.sliceTo self.round_keys.toList 12)) (← Aes.Leak.idx .data self.round_keys 12)

/-- src/lib.rs:503-508,521 `decrypt_2_blocks`. -/
def Aes192Dec.decrypt_2_blocks (self : Aes.AesDec B 12) (ciphertext : X2) : Aes.Leak.L X2 := do
  let round_keys : Vector X2 13 := Vector.map Aes.AesBlockX2.from_block self.round_keys
  Aes.Leak.LVec.dec_last (← AesBlockX2.chain_dec ciphertext (← Aes.Leak.sliceTo round_keys.toList 12)) (← Aes.Leak.idx .data round_keys 12)

/-- src/lib.rs:510-515,521 `decrypt_4_blocks`. -/
def Aes192Dec.decrypt_4_blocks (self : Aes.AesDec B 12) (ciphertext : X4) : Aes.Leak.L X4 := do
  let round_keys : Vector X4 13 := Vector.map Aes.AesBlockX4.from_block self.round_keys
  Aes.Leak.LVec.dec_last (← AesBlockX4.chain_dec ciphertext (← Aes.Leak.sliceTo round_keys.toList 12)) (← Aes.Leak.idx .data round_keys 12)

/-- src/lib.rs:438-442,522 `from`. -/
def Aes256Enc.from (value : Vector U8 32) : Aes.Leak.L (Aes.AesEnc B 14) := do
  pure ({ round_keys := (← Aes.Leak.LBlock.keygen_256 value) : Aes.AesEnc B 14 })

/-- src/lib.rs:461-465,522 `decrypter`. -/
def Aes256Enc.decrypter (self : Aes.AesEnc B 14) : Aes.Leak.L (Aes.AesDec B 14) := do
  pure ({ round_keys := (← dec_round_keys 15 self.round_keys) : Aes.AesDec B 14 })

/-- src/lib.rs:453-455,522 `from`. -/
def Aes256Dec.from (value : Vector U8 32) : Aes.Leak.L (Aes.AesDec B 14) := do
  Aes256Enc.decrypter (← Aes256Enc.from value)

/-- src/lib.rs:467-471,522 `encrypt_block`. -/
def Aes256Enc.encrypt_block (self : Aes.AesEnc B 14) (plaintext : B) : Aes.Leak.L B := do
  Aes.Leak.LVec.enc_last (← AesBlock.chain_enc plaintext (← Aes.Leak.sliceTo self.round_keys.toList 14)) (← Aes.Leak.idx .data self.round_keys 14)

/-- src/lib.rs:473-478,522 `encrypt_2_blocks`. -/
def Aes256Enc.encrypt_2_blocks (self : Aes.AesEnc B 14) (plaintext : X2) : Aes.Leak.L X2 := do
  let round_keys : Vector X2 15 := Vector.map Aes.AesBlockX2.from_block self.round_keys
  Aes.Leak.LVec.enc_last (← AesBlockX2.chain_enc plaintext (← Aes.Leak.sliceTo round_keys.toList 14)) (← Aes.Leak.idx .data round_keys 14)

/-- src/lib.rs:480-485,522 `encrypt_4_blocks`. -/
def Aes256Enc.encrypt_4_blocks (self : Aes.AesEnc B 14) (plaintext : X4) : Aes.Leak.L X4 := do
  let round_keys : Vector X4 15 := Vector.map Aes.AesBlockX4.from_block self.round_keys
  Aes.Leak.LVec.enc_last (← AesBlockX4.chain_enc plaintext (← Aes.Leak.sliceTo round_keys.toList 14)) (← Aes.Leak.idx .data round_keys 14)

/-- src/lib.rs:491-495,522 `encrypter`. -/
def Aes256Dec.encrypter (self : Aes.AesDec B 14) : Aes.Leak.L (Aes.AesEnc B 14) := do
  pure ({ round_keys := (← enc_round_keys 15 self.round_keys) : Aes.AesEnc B 14 })

/-- src/lib.rs:497-501,522 `decrypt_block`. -/
def Aes256Dec.decrypt_block (self : Aes.AesDec B 14) (ciphertext : B) : Aes.Leak.L B := do
  Aes.Leak.LVec.dec_last (← AesBlock.chain_dec ciphertext (← Aes.Leak.sliceTo self.round_keys.toList 14)) (← Aes.Leak.idx .data self.round_keys 14)

/-- src/lib.rs:503-508,522 `decrypt_2_blocks`. -/
def Aes256Dec.decrypt_2_blocks (self : Aes.AesDec B 14) (ciphertext : X2) : Aes.Leak.L X2 := do
  let round_keys : Vector X2 15 := Vector.map Aes.AesBlockX2.from_block self.round_keys
  Aes.Leak.LVec.dec_last (← AesBlockX2.chain_dec ciphertext (← Aes.Leak.sliceTo round_keys.toList 14)) (← Aes.Leak.idx .data round_keys 14)

/-- src/lib.rs:510-515,522 `decrypt_4_blocks`. -/
def Aes256Dec.decrypt_4_blocks (self : Aes.AesDec B 14) (ciphertext : X4) : Aes.Leak.L X4 := do
  let round_keys : Vector X4 15 := Vector.map Aes.AesBlockX4.from_block self.round_keys
  Aes.Leak.LVec.dec_last (← AesBlockX4.chain_dec ciphertext (← Aes.Leak.sliceTo round_keys.toList 14)) (← Aes.Leak.idx .data round_keys 14)

end RustSrc.Leak.Lib.Pre
