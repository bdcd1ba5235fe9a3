import Verif.Gen.LeakCore
import Verif.Gen.LeakIntrinsics
import Verif.Gen.Riscv32
/-
src/aes_riscv32.rs, function by function, with the trace of every call.
Generated by tools/rust2lean.py; do not edit.
-/
namespace RustSrc.Leak.Riscv32
open Rust
open RustSrc.Leak.Core
variable [Cfg]

/-- src/aes_riscv32.rs:4-7 `#[derive(PartialEq)]`. -/
def eq (self other : Aes.Riscv32.Block) : Aes.Leak.L Bool :=
  Aes.Leak.andAlso (Aes.Leak.eqw self.w0 other.w0) (Aes.Leak.andAlso (Aes.Leak.eqw self.w1 other.w1) (Aes.Leak.andAlso (Aes.Leak.eqw self.w2 other.w2) (Aes.Leak.eqw self.w3 other.w3)))

/-- src/aes_riscv32.rs:102-104 `new`. -/
def new (value : Vector U8 16) : Aes.Leak.L Aes.Riscv32.Block :=
  Aes.Leak.emit .move (transmute value)

/-- src/aes_riscv32.rs:44-46 `from`. -/
def from_bytes (value : Vector U8 16) : Aes.Leak.L Aes.Riscv32.Block :=
  new value

/-- src/aes_riscv32.rs:53-60 `bitand`. -/
def bitand (self : Aes.Riscv32.Block) (rhs : Aes.Riscv32.Block) : Aes.Leak.L Aes.Riscv32.Block := do
  pure (⟨(← Aes.Leak.and self.w0 rhs.w0), (← Aes.Leak.and self.w1 rhs.w1), (← Aes.Leak.and self.w2 rhs.w2), (← Aes.Leak.and self.w3 rhs.w3)⟩ : Aes.Riscv32.Block)

/-- src/aes_riscv32.rs:67-74 `bitor`. -/
def bitor (self : Aes.Riscv32.Block) (rhs : Aes.Riscv32.Block) : Aes.Leak.L Aes.Riscv32.Block := do
  pure (⟨(← Aes.Leak.or self.w0 rhs.w0), (← Aes.Leak.or self.w1 rhs.w1), (← Aes.Leak.or self.w2 rhs.w2), (← Aes.Leak.or self.w3 rhs.w3)⟩ : Aes.Riscv32.Block)

/-- src/aes_riscv32.rs:81-88 `bitxor`. -/
def bitxor (self : Aes.Riscv32.Block) (rhs : Aes.Riscv32.Block) : Aes.Leak.L Aes.Riscv32.Block := do
  pure (⟨(← Aes.Leak.xor self.w0 rhs.w0), (← Aes.Leak.xor self.w1 rhs.w1), (← Aes.Leak.xor self.w2 rhs.w2), (← Aes.Leak.xor self.w3 rhs.w3)⟩ : Aes.Riscv32.Block)

/-- src/aes_riscv32.rs:95-97 `not`. -/
def not (self : Aes.Riscv32.Block) : Aes.Leak.L Aes.Riscv32.Block := do
  pure (⟨(← Aes.Leak.not self.w0), (← Aes.Leak.not self.w1), (← Aes.Leak.not self.w2), (← Aes.Leak.not self.w3)⟩ : Aes.Riscv32.Block)

/-- src/aes_riscv32.rs:107-112 `store_to`. -/
def store_to (self : Aes.Riscv32.Block) (dst : List U8) : Aes.Leak.L (List U8) := do
  Aes.Leak.assert (decide (dst.length ≥ 16))
  let dst ← Aes.Leak.rawWrite dst (Layout.bytes self)
  pure dst

/-- src/aes_riscv32.rs:115-117 `zero`. -/
def zero : Aes.Leak.L Aes.Riscv32.Block :=
  pure (⟨0#32, 0#32, 0#32, 0#32⟩ : Aes.Riscv32.Block)

/-- src/aes_riscv32.rs:121-123 `is_zero`. -/
def is_zero (self : Aes.Riscv32.Block) : Aes.Leak.L Bool := do
  Aes.Leak.eqw (← Aes.Leak.or (← Aes.Leak.or (← Aes.Leak.or self.w0 self.w1) self.w2) self.w3) 0#32

/-- src/aes_riscv32.rs:23-32 `inner`. -/
def pre_enc_inner (t0 : U32) (t1 : U32) (t2 : U32) (t3 : U32) (rk : U32) : Aes.Leak.L U32 := do
  let value : U32 := rk
  let value ← llvm.riscv.aes32esmi value t0 0#32
  let value ← llvm.riscv.aes32esmi value t1 1#32
  let value ← llvm.riscv.aes32esmi value t2 2#32
  let value ← llvm.riscv.aes32esmi value t3 3#32
  pure value

/-- src/aes_riscv32.rs:126-128 `pre_enc`. -/
def pre_enc (self : Aes.Riscv32.Block) (round_key : Aes.Riscv32.Block) : Aes.Leak.L Aes.Riscv32.Block := do
  pure (⟨(← pre_enc_inner self.w0 self.w1 self.w2 self.w3 round_key.w0), (← pre_enc_inner self.w1 self.w2 self.w3 self.w0 round_key.w1), (← pre_enc_inner self.w2 self.w3 self.w0 self.w1 round_key.w2), (← pre_enc_inner self.w3 self.w0 self.w1 self.w2 round_key.w3)⟩ : Aes.Riscv32.Block)

/-- src/aes_riscv32.rs:132-134 `enc`. -/
def enc (self : Aes.Riscv32.Block) (round_key : Aes.Riscv32.Block) : Aes.Leak.L Aes.Riscv32.Block := do
  bitxor (← pre_enc self (← zero)) round_key

/-- src/aes_riscv32.rs:23-32 `inner`. -/
def pre_enc_last_inner (t0 : U32) (t1 : U32) (t2 : U32) (t3 : U32) (rk : U32) : Aes.Leak.L U32 := do
  let value : U32 := rk
  let value ← llvm.riscv.aes32esi value t0 0#32
  let value ← llvm.riscv.aes32esi value t1 1#32
  let value ← llvm.riscv.aes32esi value t2 2#32
  let value ← llvm.riscv.aes32esi value t3 3#32
  pure value

/-- src/aes_riscv32.rs:137-139 `pre_enc_last`. -/
def pre_enc_last (self : Aes.Riscv32.Block) (round_key : Aes.Riscv32.Block) : Aes.Leak.L Aes.Riscv32.Block := do
  pure (⟨(← pre_enc_last_inner self.w0 self.w1 self.w2 self.w3 round_key.w0), (← pre_enc_last_inner self.w1 self.w2 self.w3 self.w0 round_key.w1), (← pre_enc_last_inner self.w2 self.w3 self.w0 self.w1 round_key.w2), (← pre_enc_last_inner self.w3 self.w0 self.w1 self.w2 round_key.w3)⟩ : Aes.Riscv32.Block)

/-- src/aes_riscv32.rs:143-145 `enc_last`. -/
def enc_last (self : Aes.Riscv32.Block) (round_key : Aes.Riscv32.Block) : Aes.Leak.L Aes.Riscv32.Block := do
  bitxor (← pre_enc_last self (← zero)) round_key

/-- src/aes_riscv32.rs:23-32 `inner`. -/
def pre_dec_inner (t0 : U32) (t1 : U32) (t2 : U32) (t3 : U32) (rk : U32) : Aes.Leak.L U32 := do
  let value : U32 := rk
  let value ← llvm.riscv.aes32dsmi value t0 0#32
  let value ← llvm.riscv.aes32dsmi value t1 1#32
  let value ← llvm.riscv.aes32dsmi value t2 2#32
  let value ← llvm.riscv.aes32dsmi value t3 3#32
  pure value

/-- src/aes_riscv32.rs:148-150 `pre_dec`. -/
def pre_dec (self : Aes.Riscv32.Block) (round_key : Aes.Riscv32.Block) : Aes.Leak.L Aes.Riscv32.Block := do
  pure (⟨(← pre_dec_inner self.w0 self.w1 self.w2 self.w3 round_key.w0), (← pre_dec_inner self.w1 self.w2 self.w3 self.w0 round_key.w1), (← pre_dec_inner self.w2 self.w3 self.w0 self.w1 round_key.w2), (← pre_dec_inner self.w3 self.w0 self.w1 self.w2 round_key.w3)⟩ : Aes.Riscv32.Block)

/-- src/aes_riscv32.rs:154-156 `dec`. -/
def dec (self : Aes.Riscv32.Block) (round_key : Aes.Riscv32.Block) : Aes.Leak.L Aes.Riscv32.Block := do
  bitxor (← pre_dec self (← zero)) round_key

/-- src/aes_riscv32.rs:23-32 `inner`. -/
def pre_dec_last_inner (t0 : U32) (t1 : U32) (t2 : U32) (t3 : U32) (rk : U32) : Aes.Leak.L U32 := do
  let value : U32 := rk
  let value ← llvm.riscv.aes32dsi value t0 0#32
  let value ← llvm.riscv.aes32dsi value t1 1#32
  let value ← llvm.riscv.aes32dsi value t2 2#32
  let value ← llvm.riscv.aes32dsi value t3 3#32
  pure value

/-- src/aes_riscv32.rs:159-161 `pre_dec_last`. -/
def pre_dec_last (self : Aes.Riscv32.Block) (round_key : Aes.Riscv32.Block) : Aes.Leak.L Aes.Riscv32.Block := do
  pure (⟨(← pre_dec_last_inner self.w0 self.w1 self.w2 self.w3 round_key.w0), (← pre_dec_last_inner self.w1 self.w2 self.w3 self.w0 round_key.w1), (← pre_dec_last_inner self.w2 self.w3 self.w0 self.w1 round_key.w2), (← pre_dec_last_inner self.w3 self.w0 self.w1 self.w2 round_key.w3)⟩ : Aes.Riscv32.Block)

/-- src/aes_riscv32.rs:165-167 `dec_last`. -/
def dec_last (self : Aes.Riscv32.Block) (round_key : Aes.Riscv32.Block) : Aes.Leak.L Aes.Riscv32.Block := do
  bitxor (← pre_dec_last self (← zero)) round_key

/-- src/aes_riscv32.rs:171-173 `mc`. -/
def mc (self : Aes.Riscv32.Block) : Aes.Leak.L Aes.Riscv32.Block := do
  enc (← pre_dec_last self (← zero)) (← zero)

/-- src/aes_riscv32.rs:177-179 `imc`. -/
def imc (self : Aes.Riscv32.Block) : Aes.Leak.L Aes.Riscv32.Block := do
  dec (← pre_enc_last self (← zero)) (← zero)

/-- src/aes_riscv32.rs:185-194 `sub_word`. -/
def sub_word (xor : U32) (word : U32) : Aes.Leak.L U32 := do
  let value : U32 := xor
  let value ← llvm.riscv.aes32esi value word 0#32
  let value ← llvm.riscv.aes32esi value word 1#32
  let value ← llvm.riscv.aes32esi value word 2#32
  let value ← llvm.riscv.aes32esi value word 3#32
  pure value

/-- src/aes_riscv32.rs:196-214 `keygen_128`. -/
def keygen_128 (key : Vector U8 16) : Aes.Leak.L (Vector Aes.Riscv32.Block 11) := do
  let expanded_keys : Vector Aes.Riscv32.Block 11 := zeroed
  let columns : Vector U32 44 ← quiet (castView expanded_keys 44)
  let columns ← Aes.Leak.forEach (enumerate (chunksExact 4 key.toList)) (fun columns (i, chunk) => do
      let columns ← Aes.Leak.upd .data columns i (← Aes.Leak.emit .move (fromNe Cfg.endian 32 (← Aes.Leak.arrayTryFrom 4 chunk)))
      pure columns) columns
  let columns ← Aes.Leak.forEach (rangeStep 0 40 4) (fun columns i => do
      let columns ← Aes.Leak.upd .data columns (← quiet (Aes.Profile.uadd Cfg.profile i 4)) (← sub_word (← Aes.Leak.xor (← Aes.Leak.idx .data columns (← quiet (Aes.Profile.uadd Cfg.profile i 0))) (← Aes.Leak.idx .RCON RustSrc.Riscv32.RCON (i / 4))) (← Aes.Leak.idx .data columns (← quiet (Aes.Profile.uadd Cfg.profile i 3))))
      let columns ← Aes.Leak.upd .data columns (← quiet (Aes.Profile.uadd Cfg.profile i 5)) (← Aes.Leak.xor (← Aes.Leak.idx .data columns (← quiet (Aes.Profile.uadd Cfg.profile i 1))) (← Aes.Leak.idx .data columns (← quiet (Aes.Profile.uadd Cfg.profile i 4))))
      let columns ← Aes.Leak.upd .data columns (← quiet (Aes.Profile.uadd Cfg.profile i 6)) (← Aes.Leak.xor (← Aes.Leak.idx .data columns (← quiet (Aes.Profile.uadd Cfg.profile i 2))) (← Aes.Leak.idx .data columns (← quiet (Aes.Profile.uadd Cfg.profile i 5))))
      let columns ← Aes.Leak.upd .data columns (← quiet (Aes.Profile.uadd Cfg.profile i 7)) (← Aes.Leak.xor (← Aes.Leak.idx .data columns (← quiet (Aes.Profile.uadd Cfg.profile i 3))) (← Aes.Leak.idx .data columns (← quiet (Aes.Profile.uadd Cfg.profile i 6))))
      pure columns) columns
  let expanded_keys : Vector Aes.Riscv32.Block 11 := castBack expanded_keys columns
  pure expanded_keys

/-- src/aes_riscv32.rs:216-241 `keygen_192`. -/
def keygen_192 (key : Vector U8 24) : Aes.Leak.L (Vector Aes.Riscv32.Block 13) := do
  let expanded_keys : Vector Aes.Riscv32.Block 13 := zeroed
  let columns : Vector U32 52 ← quiet (castView expanded_keys 52)
  let columns ← Aes.Leak.forEach (enumerate (chunksExact 4 key.toList)) (fun columns (i, chunk) => do
      let columns ← Aes.Leak.upd .data columns i (← Aes.Leak.emit .move (fromNe Cfg.endian 32 (← Aes.Leak.arrayTryFrom 4 chunk)))
      pure columns) columns
  let columns ← Aes.Leak.forEach (rangeStep 0 42 6) (fun columns i => do
      let columns ← Aes.Leak.upd .data columns (← quiet (Aes.Profile.uadd Cfg.profile i 6)) (← sub_word (← Aes.Leak.xor (← Aes.Leak.idx .data columns (← quiet (Aes.Profile.uadd Cfg.profile i 0))) (← Aes.Leak.idx .RCON RustSrc.Riscv32.RCON (i / 6))) (← Aes.Leak.idx .data columns (← quiet (Aes.Profile.uadd Cfg.profile i 5))))
      let columns ← Aes.Leak.upd .data columns (← quiet (Aes.Profile.uadd Cfg.profile i 7)) (← Aes.Leak.xor (← Aes.Leak.idx .data columns (← quiet (Aes.Profile.uadd Cfg.profile i 1))) (← Aes.Leak.idx .data columns (← quiet (Aes.Profile.uadd Cfg.profile i 6))))
      let columns ← Aes.Leak.upd .data columns (← quiet (Aes.Profile.uadd Cfg.profile i 8)) (← Aes.Leak.xor (← Aes.Leak.idx .data columns (← quiet (Aes.Profile.uadd Cfg.profile i 2))) (← Aes.Leak.idx .data columns (← quiet (Aes.Profile.uadd Cfg.profile i 7))))
      let columns ← Aes.Leak.upd .data columns (← quiet (Aes.Profile.uadd Cfg.profile i 9)) (← Aes.Leak.xor (← Aes.Leak.idx .data columns (← quiet (Aes.Profile.uadd Cfg.profile i 3))) (← Aes.Leak.idx .data columns (← quiet (Aes.Profile.uadd Cfg.profile i 8))))
      let columns ← Aes.Leak.upd .data columns (← quiet (Aes.Profile.uadd Cfg.profile i 10)) (← Aes.Leak.xor (← Aes.Leak.idx .data columns (← quiet (Aes.Profile.uadd Cfg.profile i 4))) (← Aes.Leak.idx .data columns (← quiet (Aes.Profile.uadd Cfg.profile i 9))))
      let columns ← Aes.Leak.upd .data columns (← quiet (Aes.Profile.uadd Cfg.profile i 11)) (← Aes.Leak.xor (← Aes.Leak.idx .data columns (← quiet (Aes.Profile.uadd Cfg.profile i 5))) (← Aes.Leak.idx .data columns (← quiet (Aes.Profile.uadd Cfg.profile i 10))))
      pure columns) columns
  let columns ← Aes.Leak.upd .data columns 48 (← sub_word (← Aes.Leak.xor (← Aes.Leak.idx .data columns 42) (← Aes.Leak.idx .RCON RustSrc.Riscv32.RCON 7)) (← Aes.Leak.idx .data columns 47))
  let columns ← Aes.Leak.upd .data columns 49 (← Aes.Leak.xor (← Aes.Leak.idx .data columns 43) (← Aes.Leak.idx .data columns 48))
  let columns ← Aes.Leak.upd .data columns 50 (← Aes.Leak.xor (← Aes.Leak.idx .data columns 44) (← Aes.Leak.idx .data columns 49))
  let columns ← Aes.Leak.upd .data columns 51 (← Aes.Leak.xor (← Aes.Leak.idx .data columns 45) (← Aes.Leak.idx .data columns 50))
  let expanded_keys : Vector Aes.Riscv32.Block 13 := castBack expanded_keys columns
  pure expanded_keys

/-- src/aes_riscv32.rs:243-270 `keygen_256`. -/
def keygen_256 (key : Vector U8 32) : Aes.Leak.L (Vector Aes.Riscv32.Block 15) := do
  let expanded_keys : Vector Aes.Riscv32.Block 15 := zeroed
  let columns : Vector U32 60 ← quiet (castView expanded_keys 60)
  let columns ← Aes.Leak.forEach (enumerate (chunksExact 4 key.toList)) (fun columns (i, chunk) => do
      let columns ← Aes.Leak.upd .data columns i (← Aes.Leak.emit .move (fromNe Cfg.endian 32 (← Aes.Leak.arrayTryFrom 4 chunk)))
      pure columns) columns
  let columns ← Aes.Leak.forEach (rangeStep 0 48 8) (fun columns i => do
      let columns ← Aes.Leak.upd .data columns (← quiet (Aes.Profile.uadd Cfg.profile i 8)) (← sub_word (← Aes.Leak.xor (← Aes.Leak.idx .data columns (← quiet (Aes.Profile.uadd Cfg.profile i 0))) (← Aes.Leak.idx .RCON RustSrc.Riscv32.RCON (i / 8))) (← Aes.Leak.rotr (← Aes.Leak.idx .data columns (← quiet (Aes.Profile.uadd Cfg.profile i 7))) 8))
      let columns ← Aes.Leak.upd .data columns (← quiet (Aes.Profile.uadd Cfg.profile i 9)) (← Aes.Leak.xor (← Aes.Leak.idx .data columns (← quiet (Aes.Profile.uadd Cfg.profile i 1))) (← Aes.Leak.idx .data columns (← quiet (Aes.Profile.uadd Cfg.profile i 8))))
      let columns ← Aes.Leak.upd .data columns (← quiet (Aes.Profile.uadd Cfg.profile i 10)) (← Aes.Leak.xor (← Aes.Leak.idx .data columns (← quiet (Aes.Profile.uadd Cfg.profile i 2))) (← Aes.Leak.idx .data columns (← quiet (Aes.Profile.uadd Cfg.profile i 9))))
      let columns ← Aes.Leak.upd .data columns (← quiet (Aes.Profile.uadd Cfg.profile i 11)) (← Aes.Leak.xor (← Aes.Leak.idx .data columns (← quiet (Aes.Profile.uadd Cfg.profile i 3))) (← Aes.Leak.idx .data columns (← quiet (Aes.Profile.uadd Cfg.profile i 10))))
      let columns ← Aes.Leak.upd .data columns (← quiet (Aes.Profile.uadd Cfg.profile i 12)) (← sub_word (← Aes.Leak.idx .data columns (← quiet (Aes.Profile.uadd Cfg.profile i 4))) (← Aes.Leak.idx .data columns (← quiet (Aes.Profile.uadd Cfg.profile i 11))))
      let columns ← Aes.Leak.upd .data columns (← quiet (Aes.Profile.uadd Cfg.profile i 13)) (← Aes.Leak.xor (← Aes.Leak.idx .data columns (← quiet (Aes.Profile.uadd Cfg.profile i 5))) (← Aes.Leak.idx .data columns (← quiet (Aes.Profile.uadd Cfg.profile i 12))))
      let columns ← Aes.Leak.upd .data columns (← quiet (Aes.Profile.uadd Cfg.profile i 14)) (← Aes.Leak.xor (← Aes.Leak.idx .data columns (← quiet (Aes.Profile.uadd Cfg.profile i 6))) (← Aes.Leak.idx .data columns (← quiet (Aes.Profile.uadd Cfg.profile i 13))))
      let columns ← Aes.Leak.upd .data columns (← quiet (Aes.Profile.uadd Cfg.profile i 15)) (← Aes.Leak.xor (← Aes.Leak.idx .data columns (← quiet (Aes.Profile.uadd Cfg.profile i 7))) (← Aes.Leak.idx .data columns (← quiet (Aes.Profile.uadd Cfg.profile i 14))))
      pure columns) columns
  let columns ← Aes.Leak.upd .data columns 56 (← sub_word (← Aes.Leak.xor (← Aes.Leak.idx .data columns 48) (← Aes.Leak.idx .RCON RustSrc.Riscv32.RCON 6)) (← Aes.Leak.idx .data columns 55))
  let columns ← Aes.Leak.upd .data columns 57 (← Aes.Leak.xor (← Aes.Leak.idx .data columns 49) (← Aes.Leak.idx .data columns 56))
  let columns ← Aes.Leak.upd .data columns 58 (← Aes.Leak.xor (← Aes.Leak.idx .data columns 50) (← Aes.Leak.idx .data columns 57))
  let columns ← Aes.Leak.upd .data columns 59 (← Aes.Leak.xor (← Aes.Leak.idx .data columns 51) (← Aes.Leak.idx .data columns 58))
  let expanded_keys : Vector Aes.Riscv32.Block 15 := castBack expanded_keys columns
  pure expanded_keys

/-- What src/aes_riscv32.rs provides to the rest of the crate. -/
@[reducible] def block : Aes.Leak.LBlock Aes.Riscv32.Block where
  new := new
  from_bytes := from_bytes
  store_to := store_to
  zero := zero
  is_zero := is_zero
  eq := eq
  bitand := bitand
  bitor := bitor
  bitxor := bitxor
  not := not
  enc := enc
  dec := dec
  enc_last := enc_last
  dec_last := dec_last
  pre := some ⟨pre_enc, pre_dec⟩
  mc := mc
  imc := imc
  keygen_128 := keygen_128
  keygen_192 := keygen_192
  keygen_256 := keygen_256

end RustSrc.Leak.Riscv32
