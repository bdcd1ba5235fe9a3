import Verif.Gen.Core
import Verif.Gen.Intrinsics
/-
src/aes_riscv32.rs, function by function.
Generated by tools/rust2lean.py; do not edit.
-/
namespace RustSrc.Riscv32
open Rust
open RustSrc.Core
variable [Cfg]

/-- src/aes_riscv32.rs:4-7 `repr(C)` of `AesBlock`. -/
instance : Layout Aes.Riscv32.Block 16 where
  bytes self := Layout.bytes (self.w0, self.w1, self.w2, self.w3)
  ofBytes b := let t : U32 × U32 × U32 × U32 := Layout.ofBytes b
    ⟨t.1, t.2.1, t.2.2.1, t.2.2.2⟩

/-- src/aes_riscv32.rs:4-7 `#[derive(PartialEq)]`. -/
def eq (self other : Aes.Riscv32.Block) : Bool :=
  self.w0 == other.w0 && self.w1 == other.w1 && self.w2 == other.w2 && self.w3 == other.w3

set_option maxRecDepth 20000 in
/-- src/aes_riscv32.rs:182 `RCON`. -/
def RCON : Vector U32 10 :=
  #v[1#32, 2#32, 4#32, 8#32, 0x10#32, 0x20#32, 0x40#32, 0x80#32,
    0x1b#32, 0x36#32]

/-- src/aes_riscv32.rs:102-104 `new`. -/
def new (value : Vector U8 16) : Aes.Riscv32.Block :=
  transmute value

/-- src/aes_riscv32.rs:44-46 `from`. -/
def from_bytes (value : Vector U8 16) : Aes.Riscv32.Block :=
  new value

/-- src/aes_riscv32.rs:53-60 `bitand`. -/
def bitand (self : Aes.Riscv32.Block) (rhs : Aes.Riscv32.Block) : Aes.Riscv32.Block :=
  (⟨self.w0 &&& rhs.w0, self.w1 &&& rhs.w1, self.w2 &&& rhs.w2, self.w3 &&& rhs.w3⟩ : Aes.Riscv32.Block)

/-- src/aes_riscv32.rs:67-74 `bitor`. -/
def bitor (self : Aes.Riscv32.Block) (rhs : Aes.Riscv32.Block) : Aes.Riscv32.Block :=
  (⟨self.w0 ||| rhs.w0, self.w1 ||| rhs.w1, self.w2 ||| rhs.w2, self.w3 ||| rhs.w3⟩ : Aes.Riscv32.Block)

/-- src/aes_riscv32.rs:81-88 `bitxor`. -/
def bitxor (self : Aes.Riscv32.Block) (rhs : Aes.Riscv32.Block) : Aes.Riscv32.Block :=
  (⟨self.w0 ^^^ rhs.w0, self.w1 ^^^ rhs.w1, self.w2 ^^^ rhs.w2, self.w3 ^^^ rhs.w3⟩ : Aes.Riscv32.Block)

/-- src/aes_riscv32.rs:95-97 `not`. -/
def not (self : Aes.Riscv32.Block) : Aes.Riscv32.Block :=
  (⟨~~~self.w0, ~~~self.w1, ~~~self.w2, ~~~self.w3⟩ : Aes.Riscv32.Block)

/-- src/aes_riscv32.rs:107-112 `store_to`. -/
def store_to (self : Aes.Riscv32.Block) (dst : List U8) : M (List U8) := do
  assert (decide (dst.length ≥ 16))
  let dst ← rawWrite dst (Layout.bytes self)
  pure dst

/-- src/aes_riscv32.rs:115-117 `zero`. -/
def zero : Aes.Riscv32.Block :=
  (⟨0#32, 0#32, 0#32, 0#32⟩ : Aes.Riscv32.Block)

/-- src/aes_riscv32.rs:121-123 `is_zero`. -/
def is_zero (self : Aes.Riscv32.Block) : Bool :=
  (((self.w0 ||| self.w1) ||| self.w2) ||| self.w3) == 0#32

/-- src/aes_riscv32.rs:23-32 `inner`. -/
def pre_enc_inner (t0 : U32) (t1 : U32) (t2 : U32) (t3 : U32) (rk : U32) : U32 :=
  let value : U32 := rk
  let value := llvm.riscv.aes32esmi value t0 0#32
  let value := llvm.riscv.aes32esmi value t1 1#32
  let value := llvm.riscv.aes32esmi value t2 2#32
  let value := llvm.riscv.aes32esmi value t3 3#32
  value

/-- src/aes_riscv32.rs:126-128 `pre_enc`. -/
def pre_enc (self : Aes.Riscv32.Block) (round_key : Aes.Riscv32.Block) : Aes.Riscv32.Block :=
  (⟨pre_enc_inner self.w0 self.w1 self.w2 self.w3 round_key.w0, pre_enc_inner self.w1 self.w2 self.w3 self.w0 round_key.w1, pre_enc_inner self.w2 self.w3 self.w0 self.w1 round_key.w2, pre_enc_inner self.w3 self.w0 self.w1 self.w2 round_key.w3⟩ : Aes.Riscv32.Block)

/-- src/aes_riscv32.rs:132-134 `enc`. -/
def enc (self : Aes.Riscv32.Block) (round_key : Aes.Riscv32.Block) : Aes.Riscv32.Block :=
  bitxor (pre_enc self zero) round_key

/-- src/aes_riscv32.rs:23-32 `inner`. -/
def pre_enc_last_inner (t0 : U32) (t1 : U32) (t2 : U32) (t3 : U32) (rk : U32) : U32 :=
  let value : U32 := rk
  let value := llvm.riscv.aes32esi value t0 0#32
  let value := llvm.riscv.aes32esi value t1 1#32
  let value := llvm.riscv.aes32esi value t2 2#32
  let value := llvm.riscv.aes32esi value t3 3#32
  value

/-- src/aes_riscv32.rs:137-139 `pre_enc_last`. -/
def pre_enc_last (self : Aes.Riscv32.Block) (round_key : Aes.Riscv32.Block) : Aes.Riscv32.Block :=
  (⟨pre_enc_last_inner self.w0 self.w1 self.w2 self.w3 round_key.w0, pre_enc_last_inner self.w1 self.w2 self.w3 self.w0 round_key.w1, pre_enc_last_inner self.w2 self.w3 self.w0 self.w1 round_key.w2, pre_enc_last_inner self.w3 self.w0 self.w1 self.w2 round_key.w3⟩ : Aes.Riscv32.Block)

/-- src/aes_riscv32.rs:143-145 `enc_last`. -/
def enc_last (self : Aes.Riscv32.Block) (round_key : Aes.Riscv32.Block) : Aes.Riscv32.Block :=
  bitxor (pre_enc_last self zero) round_key

/-- src/aes_riscv32.rs:23-32 `inner`. -/
def pre_dec_inner (t0 : U32) (t1 : U32) (t2 : U32) (t3 : U32) (rk : U32) : U32 :=
  let value : U32 := rk
  let value := llvm.riscv.aes32dsmi value t0 0#32
  let value := llvm.riscv.aes32dsmi value t1 1#32
  let value := llvm.riscv.aes32dsmi value t2 2#32
  let value := llvm.riscv.aes32dsmi value t3 3#32
  value

/-- src/aes_riscv32.rs:148-150 `pre_dec`. -/
def pre_dec (self : Aes.Riscv32.Block) (round_key : Aes.Riscv32.Block) : Aes.Riscv32.Block :=
  (⟨pre_dec_inner self.w0 self.w1 self.w2 self.w3 round_key.w0, pre_dec_inner self.w1 self.w2 self.w3 self.w0 round_key.w1, pre_dec_inner self.w2 self.w3 self.w0 self.w1 round_key.w2, pre_dec_inner self.w3 self.w0 self.w1 self.w2 round_key.w3⟩ : Aes.Riscv32.Block)

/-- src/aes_riscv32.rs:154-156 `dec`. -/
def dec (self : Aes.Riscv32.Block) (round_key : Aes.Riscv32.Block) : Aes.Riscv32.Block :=
  bitxor (pre_dec self zero) round_key

/-- src/aes_riscv32.rs:23-32 `inner`. -/
def pre_dec_last_inner (t0 : U32) (t1 : U32) (t2 : U32) (t3 : U32) (rk : U32) : U32 :=
  let value : U32 := rk
  let value := llvm.riscv.aes32dsi value t0 0#32
  let value := llvm.riscv.aes32dsi value t1 1#32
  let value := llvm.riscv.aes32dsi value t2 2#32
  let value := llvm.riscv.aes32dsi value t3 3#32
  value

/-- src/aes_riscv32.rs:159-161 `pre_dec_last`. -/
def pre_dec_last (self : Aes.Riscv32.Block) (round_key : Aes.Riscv32.Block) : Aes.Riscv32.Block :=
  (⟨pre_dec_last_inner self.w0 self.w1 self.w2 self.w3 round_key.w0, pre_dec_last_inner self.w1 self.w2 self.w3 self.w0 round_key.w1, pre_dec_last_inner self.w2 self.w3 self.w0 self.w1 round_key.w2, pre_dec_last_inner self.w3 self.w0 self.w1 self.w2 round_key.w3⟩ : Aes.Riscv32.Block)

/-- src/aes_riscv32.rs:165-167 `dec_last`. -/
def dec_last (self : Aes.Riscv32.Block) (round_key : Aes.Riscv32.Block) : Aes.Riscv32.Block :=
  bitxor (pre_dec_last self zero) round_key

/-- src/aes_riscv32.rs:171-173 `mc`. -/
def mc (self : Aes.Riscv32.Block) : Aes.Riscv32.Block :=
  enc (pre_dec_last self zero) zero

/-- src/aes_riscv32.rs:177-179 `imc`. -/
def imc (self : Aes.Riscv32.Block) : Aes.Riscv32.Block :=
  dec (pre_enc_last self zero) zero

/-- src/aes_riscv32.rs:185-194 `sub_word`. -/
def sub_word (xor : U32) (word : U32) : U32 :=
  let value : U32 := xor
  let value := llvm.riscv.aes32esi value word 0#32
  let value := llvm.riscv.aes32esi value word 1#32
  let value := llvm.riscv.aes32esi value word 2#32
  let value := llvm.riscv.aes32esi value word 3#32
  value

/-- src/aes_riscv32.rs:196-214 `keygen_128`. -/
def keygen_128 (key : Vector U8 16) : M (Vector Aes.Riscv32.Block 11) := do
  let expanded_keys : Vector Aes.Riscv32.Block 11 := zeroed
  let columns : Vector U32 44 ← castView expanded_keys 44
  let columns ← (enumerate (chunksExact 4 key.toList)).foldlM (fun columns (i, chunk) => do
      let columns ← upd columns i (fromNe Cfg.endian 32 (← arrayTryFrom 4 chunk))
      pure columns) columns
  let columns ← (rangeStep 0 40 4).foldlM (fun columns i => do
      let columns ← upd columns (← Aes.Profile.uadd Cfg.profile i 4) (sub_word ((← idx columns (← Aes.Profile.uadd Cfg.profile i 0)) ^^^ (← idx RCON (i / 4))) (← idx columns (← Aes.Profile.uadd Cfg.profile i 3)))
      let columns ← upd columns (← Aes.Profile.uadd Cfg.profile i 5) ((← idx columns (← Aes.Profile.uadd Cfg.profile i 1)) ^^^ (← idx columns (← Aes.Profile.uadd Cfg.profile i 4)))
      let columns ← upd columns (← Aes.Profile.uadd Cfg.profile i 6) ((← idx columns (← Aes.Profile.uadd Cfg.profile i 2)) ^^^ (← idx columns (← Aes.Profile.uadd Cfg.profile i 5)))
      let columns ← upd columns (← Aes.Profile.uadd Cfg.profile i 7) ((← idx columns (← Aes.Profile.uadd Cfg.profile i 3)) ^^^ (← idx columns (← Aes.Profile.uadd Cfg.profile i 6)))
      pure columns) columns
  let expanded_keys : Vector Aes.Riscv32.Block 11 := castBack expanded_keys columns
  pure expanded_keys

/-- src/aes_riscv32.rs:216-241 `keygen_192`. -/
def keygen_192 (key : Vector U8 24) : M (Vector Aes.Riscv32.Block 13) := do
  let expanded_keys : Vector Aes.Riscv32.Block 13 := zeroed
  let columns : Vector U32 52 ← castView expanded_keys 52
  let columns ← (enumerate (chunksExact 4 key.toList)).foldlM (fun columns (i, chunk) => do
      let columns ← upd columns i (fromNe Cfg.endian 32 (← arrayTryFrom 4 chunk))
      pure columns) columns
  let columns ← (rangeStep 0 42 6).foldlM (fun columns i => do
      let columns ← upd columns (← Aes.Profile.uadd Cfg.profile i 6) (sub_word ((← idx columns (← Aes.Profile.uadd Cfg.profile i 0)) ^^^ (← idx RCON (i / 6))) (← idx columns (← Aes.Profile.uadd Cfg.profile i 5)))
      let columns ← upd columns (← Aes.Profile.uadd Cfg.profile i 7) ((← idx columns (← Aes.Profile.uadd Cfg.profile i 1)) ^^^ (← idx columns (← Aes.Profile.uadd Cfg.profile i 6)))
      let columns ← upd columns (← Aes.Profile.uadd Cfg.profile i 8) ((← idx columns (← Aes.Profile.uadd Cfg.profile i 2)) ^^^ (← idx columns (← Aes.Profile.uadd Cfg.profile i 7)))
      let columns ← upd columns (← Aes.Profile.uadd Cfg.profile i 9) ((← idx columns (← Aes.Profile.uadd Cfg.profile i 3)) ^^^ (← idx columns (← Aes.Profile.uadd Cfg.profile i 8)))
      let columns ← upd columns (← Aes.Profile.uadd Cfg.profile i 10) ((← idx columns (← Aes.Profile.uadd Cfg.profile i 4)) ^^^ (← idx columns (← Aes.Profile.uadd Cfg.profile i 9)))
      let columns ← upd columns (← Aes.Profile.uadd Cfg.profile i 11) ((← idx columns (← Aes.Profile.uadd Cfg.profile i 5)) ^^^ (← idx columns (← Aes.Profile.uadd Cfg.profile i 10)))
      pure columns) columns
  let columns ← upd columns 48 (sub_word ((← idx columns 42) ^^^ RCON[7]) (← idx columns 47))
  let columns ← upd columns 49 ((← idx columns 43) ^^^ (← idx columns 48))
  let columns ← upd columns 50 ((← idx columns 44) ^^^ (← idx columns 49))
  let columns ← upd columns 51 ((← idx columns 45) ^^^ (← idx columns 50))
  let expanded_keys : Vector Aes.Riscv32.Block 13 := castBack expanded_keys columns
  pure expanded_keys

/-- src/aes_riscv32.rs:243-270 `keygen_256`. -/
def keygen_256 (key : Vector U8 32) : M (Vector Aes.Riscv32.Block 15) := do
  let expanded_keys : Vector Aes.Riscv32.Block 15 := zeroed
  let columns : Vector U32 60 ← castView expanded_keys 60
  let columns ← (enumerate (chunksExact 4 key.toList)).foldlM (fun columns (i, chunk) => do
      let columns ← upd columns i (fromNe Cfg.endian 32 (← arrayTryFrom 4 chunk))
      pure columns) columns
  let columns ← (rangeStep 0 48 8).foldlM (fun columns i => do
      let columns ← upd columns (← Aes.Profile.uadd Cfg.profile i 8) (sub_word ((← idx columns (← Aes.Profile.uadd Cfg.profile i 0)) ^^^ (← idx RCON (i / 8))) ((← idx columns (← Aes.Profile.uadd Cfg.profile i 7)).rotateRight 8))
      let columns ← upd columns (← Aes.Profile.uadd Cfg.profile i 9) ((← idx columns (← Aes.Profile.uadd Cfg.profile i 1)) ^^^ (← idx columns (← Aes.Profile.uadd Cfg.profile i 8)))
      let columns ← upd columns (← Aes.Profile.uadd Cfg.profile i 10) ((← idx columns (← Aes.Profile.uadd Cfg.profile i 2)) ^^^ (← idx columns (← Aes.Profile.uadd Cfg.profile i 9)))
      let columns ← upd columns (← Aes.Profile.uadd Cfg.profile i 11) ((← idx columns (← Aes.Profile.uadd Cfg.profile i 3)) ^^^ (← idx columns (← Aes.Profile.uadd Cfg.profile i 10)))
      let columns ← upd columns (← Aes.Profile.uadd Cfg.profile i 12) (sub_word (← idx columns (← Aes.Profile.uadd Cfg.profile i 4)) (← idx columns (← Aes.Profile.uadd Cfg.profile i 11)))
      let columns ← upd columns (← Aes.Profile.uadd Cfg.profile i 13) ((← idx columns (← Aes.Profile.uadd Cfg.profile i 5)) ^^^ (← idx columns (← Aes.Profile.uadd Cfg.profile i 12)))
      let columns ← upd columns (← Aes.Profile.uadd Cfg.profile i 14) ((← idx columns (← Aes.Profile.uadd Cfg.profile i 6)) ^^^ (← idx columns (← Aes.Profile.uadd Cfg.profile i 13)))
      let columns ← upd columns (← Aes.Profile.uadd Cfg.profile i 15) ((← idx columns (← Aes.Profile.uadd Cfg.profile i 7)) ^^^ (← idx columns (← Aes.Profile.uadd Cfg.profile i 14)))
      pure columns) columns
  let columns ← upd columns 56 (sub_word ((← idx columns 48) ^^^ RCON[6]) (← idx columns 55))
  let columns ← upd columns 57 ((← idx columns 49) ^^^ (← idx columns 56))
  let columns ← upd columns 58 ((← idx columns 50) ^^^ (← idx columns 57))
  let columns ← upd columns 59 ((← idx columns 51) ^^^ (← idx columns 58))
  let expanded_keys : Vector Aes.Riscv32.Block 15 := castBack expanded_keys columns
  pure expanded_keys

/-- What src/aes_riscv32.rs provides to the rest of the crate. -/
@[reducible] def block : Aes.AesBlock Aes.Riscv32.Block where
  new := fun a0 => pure (new a0)
  from_bytes := fun a0 => pure (from_bytes a0)
  store_to := store_to
  zero := zero
  is_zero := is_zero
  eq := eq
  bitand := bitand
  bitor := bitor
  bitxor := bitxor
  not := not
  enc := enc
  dec := dec
  enc_last := enc_last
  dec_last := dec_last
  pre := some ⟨pre_enc, pre_dec⟩
  mc := mc
  imc := imc
  keygen_128 := keygen_128
  keygen_192 := keygen_192
  keygen_256 := keygen_256

end RustSrc.Riscv32
