import Verif.Gen.LeakCore
import Verif.Gen.LeakIntrinsics
import Verif.Gen.Arm
/-
src/aes_arm.rs, function by function, with the trace of every call.
Generated by tools/rust2lean.py; do not edit.
-/
namespace RustSrc.Leak.Arm
open Rust
open RustSrc.Leak.Core
variable [Cfg]

/-- src/aes_arm.rs:51-53 `bitxor`. -/
def bitxor (self : (Aes.Arm.Block Cfg.is32)) (rhs : (Aes.Arm.Block Cfg.is32)) : Aes.Leak.L (Aes.Arm.Block Cfg.is32) := do
  pure (⟨(← veorq_u8 self.val rhs.val)⟩ : (Aes.Arm.Block Cfg.is32))

/-- src/aes_arm.rs:85-100 `is_zero`. -/
def is_zero (self : (Aes.Arm.Block Cfg.is32)) : Aes.Leak.L Bool := do
  if Cfg.is32 = true then do
    let a : IsaArm.U8x16 := vreinterpretq_u32_u8 self.val
    Aes.Leak.eqw (← Aes.Leak.or (← Aes.Leak.or (← Aes.Leak.or (← vgetq_lane_u32 0#32 a) (← vgetq_lane_u32 1#32 a)) (← vgetq_lane_u32 2#32 a)) (← vgetq_lane_u32 3#32 a)) 0#32
  else do
    let a : IsaArm.U8x16 := vreinterpretq_u64_u8 self.val
    Aes.Leak.eqw (← Aes.Leak.or (← vgetq_lane_u64 0#32 a) (← vgetq_lane_u64 1#32 a)) 0#64

/-- src/aes_arm.rs:15-17 `eq`. -/
def eq (self : (Aes.Arm.Block Cfg.is32)) (other : (Aes.Arm.Block Cfg.is32)) : Aes.Leak.L Bool := do
  is_zero (← bitxor self other)

/-- src/aes_arm.rs:24-26 `from`. -/
def from_bytes (value : Vector U8 16) : Aes.Leak.L (Aes.Arm.Block Cfg.is32) := do
  pure (⟨(← vld1q_u8 value.toList)⟩ : (Aes.Arm.Block Cfg.is32))

/-- src/aes_arm.rs:33-35 `bitand`. -/
def bitand (self : (Aes.Arm.Block Cfg.is32)) (rhs : (Aes.Arm.Block Cfg.is32)) : Aes.Leak.L (Aes.Arm.Block Cfg.is32) := do
  pure (⟨(← vandq_u8 self.val rhs.val)⟩ : (Aes.Arm.Block Cfg.is32))

/-- src/aes_arm.rs:42-44 `bitor`. -/
def bitor (self : (Aes.Arm.Block Cfg.is32)) (rhs : (Aes.Arm.Block Cfg.is32)) : Aes.Leak.L (Aes.Arm.Block Cfg.is32) := do
  pure (⟨(← vorrq_u8 self.val rhs.val)⟩ : (Aes.Arm.Block Cfg.is32))

/-- src/aes_arm.rs:60-62 `not`. -/
def not (self : (Aes.Arm.Block Cfg.is32)) : Aes.Leak.L (Aes.Arm.Block Cfg.is32) := do
  pure (⟨(← vmvnq_u8 self.val)⟩ : (Aes.Arm.Block Cfg.is32))

/-- src/aes_arm.rs:67-70 `new`. -/
def new (value : Vector U8 16) : Aes.Leak.L (Aes.Arm.Block Cfg.is32) :=
  Aes.Leak.emit .move (transmute value)

/-- src/aes_arm.rs:73-76 `store_to`. -/
def store_to (self : (Aes.Arm.Block Cfg.is32)) (dst : List U8) : Aes.Leak.L (List U8) := do
  Aes.Leak.assert (decide (dst.length ≥ 16))
  let dst ← vst1q_u8 dst self.val
  pure dst

/-- src/aes_arm.rs:79-81 `zero`. -/
def zero : Aes.Leak.L (Aes.Arm.Block Cfg.is32) :=
  pure (⟨vdupq_n_u8 0#8⟩ : (Aes.Arm.Block Cfg.is32))

/-- src/aes_arm.rs:103-105 `aese`. -/
def aese (self : (Aes.Arm.Block Cfg.is32)) (round_key : (Aes.Arm.Block Cfg.is32)) : Aes.Leak.L (Aes.Arm.Block Cfg.is32) := do
  pure (⟨(← vaeseq_u8 self.val round_key.val)⟩ : (Aes.Arm.Block Cfg.is32))

/-- src/aes_arm.rs:148-150 `mc`. -/
def mc (self : (Aes.Arm.Block Cfg.is32)) : Aes.Leak.L (Aes.Arm.Block Cfg.is32) := do
  pure (⟨(← vaesmcq_u8 self.val)⟩ : (Aes.Arm.Block Cfg.is32))

/-- src/aes_arm.rs:108-110 `pre_enc`. -/
def pre_enc (self : (Aes.Arm.Block Cfg.is32)) (round_key : (Aes.Arm.Block Cfg.is32)) : Aes.Leak.L (Aes.Arm.Block Cfg.is32) := do
  mc (← aese self round_key)

/-- src/aes_arm.rs:114-116 `enc`. -/
def enc (self : (Aes.Arm.Block Cfg.is32)) (round_key : (Aes.Arm.Block Cfg.is32)) : Aes.Leak.L (Aes.Arm.Block Cfg.is32) := do
  bitxor (← pre_enc self (← zero)) round_key

/-- src/aes_arm.rs:119-121 `aesd`. -/
def aesd (self : (Aes.Arm.Block Cfg.is32)) (round_key : (Aes.Arm.Block Cfg.is32)) : Aes.Leak.L (Aes.Arm.Block Cfg.is32) := do
  pure (⟨(← vaesdq_u8 self.val round_key.val)⟩ : (Aes.Arm.Block Cfg.is32))

/-- src/aes_arm.rs:154-156 `imc`. -/
def imc (self : (Aes.Arm.Block Cfg.is32)) : Aes.Leak.L (Aes.Arm.Block Cfg.is32) := do
  pure (⟨(← vaesimcq_u8 self.val)⟩ : (Aes.Arm.Block Cfg.is32))

/-- src/aes_arm.rs:124-126 `pre_dec`. -/
def pre_dec (self : (Aes.Arm.Block Cfg.is32)) (round_key : (Aes.Arm.Block Cfg.is32)) : Aes.Leak.L (Aes.Arm.Block Cfg.is32) := do
  imc (← aesd self round_key)

/-- src/aes_arm.rs:130-132 `dec`. -/
def dec (self : (Aes.Arm.Block Cfg.is32)) (round_key : (Aes.Arm.Block Cfg.is32)) : Aes.Leak.L (Aes.Arm.Block Cfg.is32) := do
  bitxor (← pre_dec self (← zero)) round_key

/-- src/aes_arm.rs:136-138 `enc_last`. -/
def enc_last (self : (Aes.Arm.Block Cfg.is32)) (round_key : (Aes.Arm.Block Cfg.is32)) : Aes.Leak.L (Aes.Arm.Block Cfg.is32) := do
  bitxor (← aese self (← zero)) round_key

/-- src/aes_arm.rs:142-144 `dec_last`. -/
def dec_last (self : (Aes.Arm.Block Cfg.is32)) (round_key : (Aes.Arm.Block Cfg.is32)) : Aes.Leak.L (Aes.Arm.Block Cfg.is32) := do
  bitxor (← aesd self (← zero)) round_key

/-- src/aes_arm.rs:160-167 `sub_word`. -/
def sub_word (input : U32) : Aes.Leak.L U32 := do
  let input : IsaArm.U8x16 := vreinterpretq_u8_u32 (← vdupq_n_u32 input)
  let sub_input : IsaArm.U8x16 ← vaeseq_u8 input (vdupq_n_u8 0#8)
  vgetq_lane_u32 0#32 (vreinterpretq_u32_u8 sub_input)

/-- src/aes_arm.rs:171-192 `keygen_128`. -/
def keygen_128 (key : Vector U8 16) : Aes.Leak.L (Vector (Aes.Arm.Block Cfg.is32) 11) := do
  let expanded_keys : Vector (Aes.Arm.Block Cfg.is32) 11 := zeroed
  let columns : Vector U32 44 ← quiet (castView expanded_keys 44)
  let columns ← Aes.Leak.forEach (enumerate (chunksExact 4 key.toList)) (fun columns (i, chunk) => do
      let columns ← Aes.Leak.upd .data columns i (← Aes.Leak.emit .move (fromNe Cfg.endian 32 (← Aes.Leak.arrayTryFrom 4 chunk)))
      pure columns) columns
  let columns ← Aes.Leak.forEach (rangeStep 0 40 4) (fun columns i => do
      let columns ← Aes.Leak.upd .data columns (← quiet (Aes.Profile.uadd Cfg.profile i 4)) (← Aes.Leak.xor (← Aes.Leak.xor (← Aes.Leak.idx .data columns (← quiet (Aes.Profile.uadd Cfg.profile i 0))) (← Aes.Leak.rotr (← sub_word (← Aes.Leak.idx .data columns (← quiet (Aes.Profile.uadd Cfg.profile i 3)))) 8)) (← Aes.Leak.idx .RCON RustSrc.Arm.RCON (i / 4)))
      let columns ← Aes.Leak.upd .data columns (← quiet (Aes.Profile.uadd Cfg.profile i 5)) (← Aes.Leak.xor (← Aes.Leak.idx .data columns (← quiet (Aes.Profile.uadd Cfg.profile i 1))) (← Aes.Leak.idx .data columns (← quiet (Aes.Profile.uadd Cfg.profile i 4))))
      let columns ← Aes.Leak.upd .data columns (← quiet (Aes.Profile.uadd Cfg.profile i 6)) (← Aes.Leak.xor (← Aes.Leak.idx .data columns (← quiet (Aes.Profile.uadd Cfg.profile i 2))) (← Aes.Leak.idx .data columns (← quiet (Aes.Profile.uadd Cfg.profile i 5))))
      let columns ← Aes.Leak.upd .data columns (← quiet (Aes.Profile.uadd Cfg.profile i 7)) (← Aes.Leak.xor (← Aes.Leak.idx .data columns (← quiet (Aes.Profile.uadd Cfg.profile i 3))) (← Aes.Leak.idx .data columns (← quiet (Aes.Profile.uadd Cfg.profile i 6))))
      pure columns) columns
  let expanded_keys : Vector (Aes.Arm.Block Cfg.is32) 11 := castBack expanded_keys columns
  pure expanded_keys

/-- src/aes_arm.rs:194-222 `keygen_192`. -/
def keygen_192 (key : Vector U8 24) : Aes.Leak.L (Vector (Aes.Arm.Block Cfg.is32) 13) := do
  let expanded_keys : Vector (Aes.Arm.Block Cfg.is32) 13 := zeroed
  let columns : Vector U32 52 ← quiet (castView expanded_keys 52)
  let columns ← Aes.Leak.forEach (enumerate (chunksExact 4 key.toList)) (fun columns (i, chunk) => do
      let columns ← Aes.Leak.upd .data columns i (← Aes.Leak.emit .move (fromNe Cfg.endian 32 (← Aes.Leak.arrayTryFrom 4 chunk)))
      pure columns) columns
  let columns ← Aes.Leak.forEach (rangeStep 0 42 6) (fun columns i => do
      let columns ← Aes.Leak.upd .data columns (← quiet (Aes.Profile.uadd Cfg.profile i 6)) (← Aes.Leak.xor (← Aes.Leak.xor (← Aes.Leak.idx .data columns (← quiet (Aes.Profile.uadd Cfg.profile i 0))) (← Aes.Leak.rotr (← sub_word (← Aes.Leak.idx .data columns (← quiet (Aes.Profile.uadd Cfg.profile i 5)))) 8)) (← Aes.Leak.idx .RCON RustSrc.Arm.RCON (i / 6)))
      let columns ← Aes.Leak.upd .data columns (← quiet (Aes.Profile.uadd Cfg.profile i 7)) (← Aes.Leak.xor (← Aes.Leak.idx .data columns (← quiet (Aes.Profile.uadd Cfg.profile i 1))) (← Aes.Leak.idx .data columns (← quiet (Aes.Profile.uadd Cfg.profile i 6))))
      let columns ← Aes.Leak.upd .data columns (← quiet (Aes.Profile.uadd Cfg.profile i 8)) (← Aes.Leak.xor (← Aes.Leak.idx .data columns (← quiet (Aes.Profile.uadd Cfg.profile i 2))) (← Aes.Leak.idx .data columns (← quiet (Aes.Profile.uadd Cfg.profile i 7))))
      let columns ← Aes.Leak.upd .data columns (← quiet (Aes.Profile.uadd Cfg.profile i 9)) (← Aes.Leak.xor (← Aes.Leak.idx .data columns (← quiet (Aes.Profile.uadd Cfg.profile i 3))) (← Aes.Leak.idx .data columns (← quiet (Aes.Profile.uadd Cfg.profile i 8))))
      let columns ← Aes.Leak.upd .data columns (← quiet (Aes.Profile.uadd Cfg.profile i 10)) (← Aes.Leak.xor (← Aes.Leak.idx .data columns (← quiet (Aes.Profile.uadd Cfg.profile i 4))) (← Aes.Leak.idx .data columns (← quiet (Aes.Profile.uadd Cfg.profile i 9))))
      let columns ← Aes.Leak.upd .data columns (← quiet (Aes.Profile.uadd Cfg.profile i 11)) (← Aes.Leak.xor (← Aes.Leak.idx .data columns (← quiet (Aes.Profile.uadd Cfg.profile i 5))) (← Aes.Leak.idx .data columns (← quiet (Aes.Profile.uadd Cfg.profile i 10))))
      pure columns) columns
  let columns ← Aes.Leak.upd .data columns 48 (← Aes.Leak.xor (← Aes.Leak.xor (← Aes.Leak.idx .data columns 42) (← Aes.Leak.rotr (← sub_word (← Aes.Leak.idx .data columns 47)) 8)) (← Aes.Leak.idx .RCON RustSrc.Arm.RCON 7))
  let columns ← Aes.Leak.upd .data columns 49 (← Aes.Leak.xor (← Aes.Leak.idx .data columns 43) (← Aes.Leak.idx .data columns 48))
  let columns ← Aes.Leak.upd .data columns 50 (← Aes.Leak.xor (← Aes.Leak.idx .data columns 44) (← Aes.Leak.idx .data columns 49))
  let columns ← Aes.Leak.upd .data columns 51 (← Aes.Leak.xor (← Aes.Leak.idx .data columns 45) (← Aes.Leak.idx .data columns 50))
  let expanded_keys : Vector (Aes.Arm.Block Cfg.is32) 13 := castBack expanded_keys columns
  pure expanded_keys

/-- src/aes_arm.rs:224-254 `keygen_256`. -/
def keygen_256 (key : Vector U8 32) : Aes.Leak.L (Vector (Aes.Arm.Block Cfg.is32) 15) := do
  let expanded_keys : Vector (Aes.Arm.Block Cfg.is32) 15 := zeroed
  let columns : Vector U32 60 ← quiet (castView expanded_keys 60)
  let columns ← Aes.Leak.forEach (enumerate (chunksExact 4 key.toList)) (fun columns (i, chunk) => do
      let columns ← Aes.Leak.upd .data columns i (← Aes.Leak.emit .move (fromNe Cfg.endian 32 (← Aes.Leak.arrayTryFrom 4 chunk)))
      pure columns) columns
  let columns ← Aes.Leak.forEach (rangeStep 0 48 8) (fun columns i => do
      let columns ← Aes.Leak.upd .data columns (← quiet (Aes.Profile.uadd Cfg.profile i 8)) (← Aes.Leak.xor (← Aes.Leak.xor (← Aes.Leak.idx .data columns (← quiet (Aes.Profile.uadd Cfg.profile i 0))) (← Aes.Leak.rotr (← sub_word (← Aes.Leak.idx .data columns (← quiet (Aes.Profile.uadd Cfg.profile i 7)))) 8)) (← Aes.Leak.idx .RCON RustSrc.Arm.RCON (i / 8)))
      let columns ← Aes.Leak.upd .data columns (← quiet (Aes.Profile.uadd Cfg.profile i 9)) (← Aes.Leak.xor (← Aes.Leak.idx .data columns (← quiet (Aes.Profile.uadd Cfg.profile i 1))) (← Aes.Leak.idx .data columns (← quiet (Aes.Profile.uadd Cfg.profile i 8))))
      let columns ← Aes.Leak.upd .data columns (← quiet (Aes.Profile.uadd Cfg.profile i 10)) (← Aes.Leak.xor (← Aes.Leak.idx .data columns (← quiet (Aes.Profile.uadd Cfg.profile i 2))) (← Aes.Leak.idx .data columns (← quiet (Aes.Profile.uadd Cfg.profile i 9))))
      let columns ← Aes.Leak.upd .data columns (← quiet (Aes.Profile.uadd Cfg.profile i 11)) (← Aes.Leak.xor (← Aes.Leak.idx .data columns (← quiet (Aes.Profile.uadd Cfg.profile i 3))) (← Aes.Leak.idx .data columns (← quiet (Aes.Profile.uadd Cfg.profile i 10))))
      let columns ← Aes.Leak.upd .data columns (← quiet (Aes.Profile.uadd Cfg.profile i 12)) (← Aes.Leak.xor (← Aes.Leak.idx .data columns (← quiet (Aes.Profile.uadd Cfg.profile i 4))) (← sub_word (← Aes.Leak.idx .data columns (← quiet (Aes.Profile.uadd Cfg.profile i 11)))))
      let columns ← Aes.Leak.upd .data columns (← quiet (Aes.Profile.uadd Cfg.profile i 13)) (← Aes.Leak.xor (← Aes.Leak.idx .data columns (← quiet (Aes.Profile.uadd Cfg.profile i 5))) (← Aes.Leak.idx .data columns (← quiet (Aes.Profile.uadd Cfg.profile i 12))))
      let columns ← Aes.Leak.upd .data columns (← quiet (Aes.Profile.uadd Cfg.profile i 14)) (← Aes.Leak.xor (← Aes.Leak.idx .data columns (← quiet (Aes.Profile.uadd Cfg.profile i 6))) (← Aes.Leak.idx .data columns (← quiet (Aes.Profile.uadd Cfg.profile i 13))))
      let columns ← Aes.Leak.upd .data columns (← quiet (Aes.Profile.uadd Cfg.profile i 15)) (← Aes.Leak.xor (← Aes.Leak.idx .data columns (← quiet (Aes.Profile.uadd Cfg.profile i 7))) (← Aes.Leak.idx .data columns (← quiet (Aes.Profile.uadd Cfg.profile i 14))))
      pure columns) columns
  let columns ← Aes.Leak.upd .data columns 56 (← Aes.Leak.xor (← Aes.Leak.xor (← Aes.Leak.idx .data columns 48) (← Aes.Leak.rotr (← sub_word (← Aes.Leak.idx .data columns 55)) 8)) (← Aes.Leak.idx .RCON RustSrc.Arm.RCON 6))
  let columns ← Aes.Leak.upd .data columns 57 (← Aes.Leak.xor (← Aes.Leak.idx .data columns 49) (← Aes.Leak.idx .data columns 56))
  let columns ← Aes.Leak.upd .data columns 58 (← Aes.Leak.xor (← Aes.Leak.idx .data columns 50) (← Aes.Leak.idx .data columns 57))
  let columns ← Aes.Leak.upd .data columns 59 (← Aes.Leak.xor (← Aes.Leak.idx .data columns 51) (← Aes.Leak.idx .data columns 58))
  let expanded_keys : Vector (Aes.Arm.Block Cfg.is32) 15 := castBack expanded_keys columns
  pure expanded_keys

/-- What src/aes_arm.rs provides to the rest of the crate. -/
@[reducible] def block : Aes.Leak.LBlock (Aes.Arm.Block Cfg.is32) where
  new := new
  from_bytes := from_bytes
  store_to := store_to
  zero := zero
  is_zero := is_zero
  eq := eq
  bitand := bitand
  bitor := bitor
  bitxor := bitxor
  not := not
  enc := enc
  dec := dec
  enc_last := enc_last
  dec_last := dec_last
  pre := some ⟨pre_enc, pre_dec⟩
  mc := mc
  imc := imc
  keygen_128 := keygen_128
  keygen_192 := keygen_192
  keygen_256 := keygen_256

end RustSrc.Leak.Arm
