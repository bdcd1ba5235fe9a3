import Verif.Gen.Core
import Verif.Gen.Intrinsics
/-
src/aes_arm.rs, function by function.
Generated by tools/rust2lean.py; do not edit.
-/
namespace RustSrc.Arm
open Rust
open RustSrc.Core
variable [Cfg]

/-- src/aes_arm.rs:8-11 `repr(transparent)` of `AesBlock`. -/
instance : Layout (Aes.Arm.Block Cfg.is32) 16 where
  bytes self := Layout.bytes self.val
  ofBytes b := ⟨Layout.ofBytes b⟩

set_option maxRecDepth 20000 in
/-- src/aes_arm.rs:169 `RCON`. -/
def RCON : Vector U32 10 :=
  #v[1#32, 2#32, 4#32, 8#32, 0x10#32, 0x20#32, 0x40#32, 0x80#32,
    0x1b#32, 0x36#32]

/-- src/aes_arm.rs:51-53 `bitxor`. -/
def bitxor (self : (Aes.Arm.Block Cfg.is32)) (rhs : (Aes.Arm.Block Cfg.is32)) : (Aes.Arm.Block Cfg.is32) :=
  (⟨veorq_u8 self.val rhs.val⟩ : (Aes.Arm.Block Cfg.is32))

/-- src/aes_arm.rs:85-100 `is_zero`. -/
def is_zero (self : (Aes.Arm.Block Cfg.is32)) : Bool :=
  if Cfg.is32 = true then
    let a : IsaArm.U8x16 := vreinterpretq_u32_u8 self.val
    ((((vgetq_lane_u32 0#32 a) ||| (vgetq_lane_u32 1#32 a)) ||| (vgetq_lane_u32 2#32 a)) ||| (vgetq_lane_u32 3#32 a)) == 0#32
  else
    let a : IsaArm.U8x16 := vreinterpretq_u64_u8 self.val
    ((vgetq_lane_u64 0#32 a) ||| (vgetq_lane_u64 1#32 a)) == 0#64

/-- src/aes_arm.rs:15-17 `eq`. -/
def eq (self : (Aes.Arm.Block Cfg.is32)) (other : (Aes.Arm.Block Cfg.is32)) : Bool :=
  is_zero (bitxor self other)

/-- src/aes_arm.rs:24-26 `from`. -/
def from_bytes (value : Vector U8 16) : M (Aes.Arm.Block Cfg.is32) := do
  pure (⟨(← vld1q_u8 value.toList)⟩ : (Aes.Arm.Block Cfg.is32))

/-- src/aes_arm.rs:33-35 `bitand`. -/
def bitand (self : (Aes.Arm.Block Cfg.is32)) (rhs : (Aes.Arm.Block Cfg.is32)) : (Aes.Arm.Block Cfg.is32) :=
  (⟨vandq_u8 self.val rhs.val⟩ : (Aes.Arm.Block Cfg.is32))

/-- src/aes_arm.rs:42-44 `bitor`. -/
def bitor (self : (Aes.Arm.Block Cfg.is32)) (rhs : (Aes.Arm.Block Cfg.is32)) : (Aes.Arm.Block Cfg.is32) :=
  (⟨vorrq_u8 self.val rhs.val⟩ : (Aes.Arm.Block Cfg.is32))

/-- src/aes_arm.rs:60-62 `not`. -/
def not (self : (Aes.Arm.Block Cfg.is32)) : (Aes.Arm.Block Cfg.is32) :=
  (⟨vmvnq_u8 self.val⟩ : (Aes.Arm.Block Cfg.is32))

/-- src/aes_arm.rs:67-70 `new`. -/
def new (value : Vector U8 16) : (Aes.Arm.Block Cfg.is32) :=
  transmute value

/-- src/aes_arm.rs:73-76 `store_to`. -/
def store_to (self : (Aes.Arm.Block Cfg.is32)) (dst : List U8) : M (List U8) := do
  assert (decide (dst.length ≥ 16))
  let dst ← vst1q_u8 dst self.val
  pure dst

/-- src/aes_arm.rs:79-81 `zero`. -/
def zero : (Aes.Arm.Block Cfg.is32) :=
  (⟨vdupq_n_u8 0#8⟩ : (Aes.Arm.Block Cfg.is32))

/-- src/aes_arm.rs:103-105 `aese`. -/
def aese (self : (Aes.Arm.Block Cfg.is32)) (round_key : (Aes.Arm.Block Cfg.is32)) : (Aes.Arm.Block Cfg.is32) :=
  (⟨vaeseq_u8 self.val round_key.val⟩ : (Aes.Arm.Block Cfg.is32))

/-- src/aes_arm.rs:148-150 `mc`. -/
def mc (self : (Aes.Arm.Block Cfg.is32)) : (Aes.Arm.Block Cfg.is32) :=
  (⟨vaesmcq_u8 self.val⟩ : (Aes.Arm.Block Cfg.is32))

/-- src/aes_arm.rs:108-110 `pre_enc`. -/
def pre_enc (self : (Aes.Arm.Block Cfg.is32)) (round_key : (Aes.Arm.Block Cfg.is32)) : (Aes.Arm.Block Cfg.is32) :=
  mc (aese self round_key)

/-- src/aes_arm.rs:114-116 `enc`. -/
def enc (self : (Aes.Arm.Block Cfg.is32)) (round_key : (Aes.Arm.Block Cfg.is32)) : (Aes.Arm.Block Cfg.is32) :=
  bitxor (pre_enc self zero) round_key

/-- src/aes_arm.rs:119-121 `aesd`. -/
def aesd (self : (Aes.Arm.Block Cfg.is32)) (round_key : (Aes.Arm.Block Cfg.is32)) : (Aes.Arm.Block Cfg.is32) :=
  (⟨vaesdq_u8 self.val round_key.val⟩ : (Aes.Arm.Block Cfg.is32))

/-- src/aes_arm.rs:154-156 `imc`. -/
def imc (self : (Aes.Arm.Block Cfg.is32)) : (Aes.Arm.Block Cfg.is32) :=
  (⟨vaesimcq_u8 self.val⟩ : (Aes.Arm.Block Cfg.is32))

/-- src/aes_arm.rs:124-126 `pre_dec`. -/
def pre_dec (self : (Aes.Arm.Block Cfg.is32)) (round_key : (Aes.Arm.Block Cfg.is32)) : (Aes.Arm.Block Cfg.is32) :=
  imc (aesd self round_key)

/-- src/aes_arm.rs:130-132 `dec`. -/
def dec (self : (Aes.Arm.Block Cfg.is32)) (round_key : (Aes.Arm.Block Cfg.is32)) : (Aes.Arm.Block Cfg.is32) :=
  bitxor (pre_dec self zero) round_key

/-- src/aes_arm.rs:136-138 `enc_last`. -/
def enc_last (self : (Aes.Arm.Block Cfg.is32)) (round_key : (Aes.Arm.Block Cfg.is32)) : (Aes.Arm.Block Cfg.is32) :=
  bitxor (aese self zero) round_key

/-- src/aes_arm.rs:142-144 `dec_last`. -/
def dec_last (self : (Aes.Arm.Block Cfg.is32)) (round_key : (Aes.Arm.Block Cfg.is32)) : (Aes.Arm.Block Cfg.is32) :=
  bitxor (aesd self zero) round_key

/-- src/aes_arm.rs:160-167 `sub_word`. -/
def sub_word (input : U32) : U32 :=
  let input : IsaArm.U8x16 := vreinterpretq_u8_u32 (vdupq_n_u32 input)
  let sub_input : IsaArm.U8x16 := vaeseq_u8 input (vdupq_n_u8 0#8)
  vgetq_lane_u32 0#32 (vreinterpretq_u32_u8 sub_input)

/-- src/aes_arm.rs:171-192 `keygen_128`. -/
def keygen_128 (key : Vector U8 16) : M (Vector (Aes.Arm.Block Cfg.is32) 11) := do
  let expanded_keys : Vector (Aes.Arm.Block Cfg.is32) 11 := zeroed
  let columns : Vector U32 44 ← castView expanded_keys 44
  let columns ← (enumerate (chunksExact 4 key.toList)).foldlM (fun columns (i, chunk) => do
      let columns ← upd columns i (fromNe Cfg.endian 32 (← arrayTryFrom 4 chunk))
      pure columns) columns
  let columns ← (rangeStep 0 40 4).foldlM (fun columns i => do
      let columns ← upd columns (← Aes.Profile.uadd Cfg.profile i 4) (((← idx columns (← Aes.Profile.uadd Cfg.profile i 0)) ^^^ ((sub_word (← idx columns (← Aes.Profile.uadd Cfg.profile i 3))).rotateRight 8)) ^^^ (← idx RCON (i / 4)))
      let columns ← upd columns (← Aes.Profile.uadd Cfg.profile i 5) ((← idx columns (← Aes.Profile.uadd Cfg.profile i 1)) ^^^ (← idx columns (← Aes.Profile.uadd Cfg.profile i 4)))
      let columns ← upd columns (← Aes.Profile.uadd Cfg.profile i 6) ((← idx columns (← Aes.Profile.uadd Cfg.profile i 2)) ^^^ (← idx columns (← Aes.Profile.uadd Cfg.profile i 5)))
      let columns ← upd columns (← Aes.Profile.uadd Cfg.profile i 7) ((← idx columns (← Aes.Profile.uadd Cfg.profile i 3)) ^^^ (← idx columns (← Aes.Profile.uadd Cfg.profile i 6)))
      pure columns) columns
  let expanded_keys : Vector (Aes.Arm.Block Cfg.is32) 11 := castBack expanded_keys columns
  pure expanded_keys

/-- src/aes_arm.rs:194-222 `keygen_192`. -/
def keygen_192 (key : Vector U8 24) : M (Vector (Aes.Arm.Block Cfg.is32) 13) := do
  let expanded_keys : Vector (Aes.Arm.Block Cfg.is32) 13 := zeroed
  let columns : Vector U32 52 ← castView expanded_keys 52
  let columns ← (enumerate (chunksExact 4 key.toList)).foldlM (fun columns (i, chunk) => do
      let columns ← upd columns i (fromNe Cfg.endian 32 (← arrayTryFrom 4 chunk))
      pure columns) columns
  let columns ← (rangeStep 0 42 6).foldlM (fun columns i => do
      let columns ← upd columns (← Aes.Profile.uadd Cfg.profile i 6) (((← idx columns (← Aes.Profile.uadd Cfg.profile i 0)) ^^^ ((sub_word (← idx columns (← Aes.Profile.uadd Cfg.profile i 5))).rotateRight 8)) ^^^ (← idx RCON (i / 6)))
      let columns ← upd columns (← Aes.Profile.uadd Cfg.profile i 7) ((← idx columns (← Aes.Profile.uadd Cfg.profile i 1)) ^^^ (← idx columns (← Aes.Profile.uadd Cfg.profile i 6)))
      let columns ← upd columns (← Aes.Profile.uadd Cfg.profile i 8) ((← idx columns (← Aes.Profile.uadd Cfg.profile i 2)) ^^^ (← idx columns (← Aes.Profile.uadd Cfg.profile i 7)))
      let columns ← upd columns (← Aes.Profile.uadd Cfg.profile i 9) ((← idx columns (← Aes.Profile.uadd Cfg.profile i 3)) ^^^ (← idx columns (← Aes.Profile.uadd Cfg.profile i 8)))
      let columns ← upd columns (← Aes.Profile.uadd Cfg.profile i 10) ((← idx columns (← Aes.Profile.uadd Cfg.profile i 4)) ^^^ (← idx columns (← Aes.Profile.uadd Cfg.profile i 9)))
      let columns ← upd columns (← Aes.Profile.uadd Cfg.profile i 11) ((← idx columns (← Aes.Profile.uadd Cfg.profile i 5)) ^^^ (← idx columns (← Aes.Profile.uadd Cfg.profile i 10)))
      pure columns) columns
  let columns ← upd columns 48 (((← idx columns 42) ^^^ ((sub_word (← idx columns 47)).rotateRight 8)) ^^^ RCON[7])
  let columns ← upd columns 49 ((← idx columns 43) ^^^ (← idx columns 48))
  let columns ← upd columns 50 ((← idx columns 44) ^^^ (← idx columns 49))
  let columns ← upd columns 51 ((← idx columns 45) ^^^ (← idx columns 50))
  let expanded_keys : Vector (Aes.Arm.Block Cfg.is32) 13 := castBack expanded_keys columns
  pure expanded_keys

/-- src/aes_arm.rs:224-254 `keygen_256`. -/
def keygen_256 (key : Vector U8 32) : M (Vector (Aes.Arm.Block Cfg.is32) 15) := do
  let expanded_keys : Vector (Aes.Arm.Block Cfg.is32) 15 := zeroed
  let columns : Vector U32 60 ← castView expanded_keys 60
  let columns ← (enumerate (chunksExact 4 key.toList)).foldlM (fun columns (i, chunk) => do
      let columns ← upd columns i (fromNe Cfg.endian 32 (← arrayTryFrom 4 chunk))
      pure columns) columns
  let columns ← (rangeStep 0 48 8).foldlM (fun columns i => do
      let columns ← upd columns (← Aes.Profile.uadd Cfg.profile i 8) (((← idx columns (← Aes.Profile.uadd Cfg.profile i 0)) ^^^ ((sub_word (← idx columns (← Aes.Profile.uadd Cfg.profile i 7))).rotateRight 8)) ^^^ (← idx RCON (i / 8)))
      let columns ← upd columns (← Aes.Profile.uadd Cfg.profile i 9) ((← idx columns (← Aes.Profile.uadd Cfg.profile i 1)) ^^^ (← idx columns (← Aes.Profile.uadd Cfg.profile i 8)))
      let columns ← upd columns (← Aes.Profile.uadd Cfg.profile i 10) ((← idx columns (← Aes.Profile.uadd Cfg.profile i 2)) ^^^ (← idx columns (← Aes.Profile.uadd Cfg.profile i 9)))
      let columns ← upd columns (← Aes.Profile.uadd Cfg.profile i 11) ((← idx columns (← Aes.Profile.uadd Cfg.profile i 3)) ^^^ (← idx columns (← Aes.Profile.uadd Cfg.profile i 10)))
      let columns ← upd columns (← Aes.Profile.uadd Cfg.profile i 12) ((← idx columns (← Aes.Profile.uadd Cfg.profile i 4)) ^^^ (sub_word (← idx columns (← Aes.Profile.uadd Cfg.profile i 11))))
      let columns ← upd columns (← Aes.Profile.uadd Cfg.profile i 13) ((← idx columns (← Aes.Profile.uadd Cfg.profile i 5)) ^^^ (← idx columns (← Aes.Profile.uadd Cfg.profile i 12)))
      let columns ← upd columns (← Aes.Profile.uadd Cfg.profile i 14) ((← idx columns (← Aes.Profile.uadd Cfg.profile i 6)) ^^^ (← idx columns (← Aes.Profile.uadd Cfg.profile i 13)))
      let columns ← upd columns (← Aes.Profile.uadd Cfg.profile i 15) ((← idx columns (← Aes.Profile.uadd Cfg.profile i 7)) ^^^ (← idx columns (← Aes.Profile.uadd Cfg.profile i 14)))
      pure columns) columns
  let columns ← upd columns 56 (((← idx columns 48) ^^^ ((sub_word (← idx columns 55)).rotateRight 8)) ^^^ RCON[6])
  let columns ← upd columns 57 ((← idx columns 49) ^^^ (← idx columns 56))
  let columns ← upd columns 58 ((← idx columns 50) ^^^ (← idx columns 57))
  let columns ← upd columns 59 ((← idx columns 51) ^^^ (← idx columns 58))
  let expanded_keys : Vector (Aes.Arm.Block Cfg.is32) 15 := castBack expanded_keys columns
  pure expanded_keys

/-- What src/aes_arm.rs provides to the rest of the crate. -/
@[reducible] def block : Aes.AesBlock (Aes.Arm.Block Cfg.is32) where
  new := fun a0 => pure (new a0)
  from_bytes := from_bytes
  store_to := store_to
  zero := zero
  is_zero := is_zero
  eq := eq
  bitand := bitand
  bitor := bitor
  bitxor := bitxor
  not := not
  enc := enc
  dec := dec
  enc_last := enc_last
  dec_last := dec_last
  pre := some ⟨pre_enc, pre_dec⟩
  mc := mc
  imc := imc
  keygen_128 := keygen_128
  keygen_192 := keygen_192
  keygen_256 := keygen_256

end RustSrc.Arm
