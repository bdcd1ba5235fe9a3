import Verif.Gen.Core
import Verif.Gen.Intrinsics
/-
src/aes_bitslice.rs, function by function.
Generated by tools/rust2lean.py; do not edit.
-/
namespace RustSrc.Bitslice
open Rust
open RustSrc.Core
variable [Cfg]

/-- src/aes_bitslice.rs:230-233 `repr(transparent)` of `AesBlock`. -/
instance : Layout (Aes.Bitslice.Block Cfg.endian) 16 where
  bytes self := Layout.bytes self.val
  ofBytes b := ⟨Layout.ofBytes b⟩

/-- src/aes_bitslice.rs:230-233 `#[derive(PartialEq)]`. -/
def eq (self other : (Aes.Bitslice.Block Cfg.endian)) : Bool :=
  self.val == other.val

set_option maxRecDepth 20000 in
/-- src/aes_bitslice.rs:338 `RCON`. -/
def RCON : Vector U32 10 :=
  #v[1#32, 2#32, 4#32, 8#32, 0x10#32, 0x20#32, 0x40#32, 0x80#32,
    0x1b#32, 0x36#32]

/-- src/aes_bitslice.rs:5-7 `rep`. -/
def rep (x : U8) : U128 :=
  fromNe Cfg.endian 128 (Vector.replicate 16 x)

/-- src/aes_bitslice.rs:10-12 `ror1`. -/
def ror1 (x : U128) : U128 :=
  ((x &&& (rep 0xfe#8)) >>> 1) ||| ((x &&& (rep 1#8)) <<< 7)

/-- src/aes_bitslice.rs:15-17 `swap2`. -/
def swap2 (x : U128) : U128 :=
  ((x &&& (rep 0xcc#8)) >>> 2) ||| ((x &&& (rep 0x33#8)) <<< 2)

/-- src/aes_bitslice.rs:20-23 `step_a`. -/
def step_a (a : U128) (b : U128) (mask : U128) : U128 :=
  let x : U128 := a &&& b
  (x ^^^ ((x &&& mask) >>> 1)) ^^^ ((((a <<< 1) &&& b) ^^^ ((b <<< 1) &&& a)) &&& mask)

/-- src/aes_bitslice.rs:26-29 `step_b`. -/
def step_b (a : U128) (mask : U128) : U128 :=
  let x : U128 := a &&& mask
  (x ||| (x >>> 1)) ^^^ ((a <<< 1) &&& mask)

/-- src/aes_bitslice.rs:37-96 `subbytes`. -/
def subbytes (x : U128) : U128 :=
  let y : U128 := ror1 x
  let x : U128 := (x &&& (rep 0xdd#8)) ^^^ (y &&& (rep 0x57#8))
  let y : U128 := ror1 y
  let x : U128 := x ^^^ (y &&& (rep 0x1c#8))
  let y : U128 := ror1 y
  let x : U128 := x ^^^ (y &&& (rep 0x4a#8))
  let y : U128 := ror1 y
  let x : U128 := x ^^^ (y &&& (rep 0x42#8))
  let y : U128 := ror1 y
  let x : U128 := x ^^^ (y &&& (rep 0x64#8))
  let y : U128 := ror1 y
  let x : U128 := x ^^^ (y &&& (rep 0xe0#8))
  let a1 : U128 := x ^^^ ((x &&& (rep 0xf0#8)) >>> 4)
  let a2 : U128 := swap2 x
  let a3 : U128 := step_a x a1 (rep 0xaa#8)
  let a4 : U128 := step_a a1 a2 (rep 0xaa#8)
  let a5 : U128 := (a3 &&& (rep 0xcc#8)) >>> 2
  let a3 : U128 := a3 ^^^ (((a4 <<< 2) ^^^ a4) &&& (rep 0xcc#8))
  let a4 : U128 := step_b a5 (rep 0x22#8)
  let a3 : U128 := a3 ^^^ a4
  let a5 : U128 := step_b a3 (rep 0xa0#8)
  let a4 : U128 := a5 &&& (rep 0xc0#8)
  let a6 : U128 := a4 >>> 2
  let a4 : U128 := a4 ^^^ ((a5 <<< 2) &&& (rep 0xc0#8))
  let a5 : U128 := step_b a6 (rep 0x20#8)
  let a4 : U128 := a4 ||| a5
  let a3 : U128 := (a3 ^^^ (a4 >>> 4)) &&& (rep 0xf#8)
  let a2 : U128 := a3 ^^^ ((a3 &&& (rep 0xc#8)) >>> 2)
  let a4 : U128 := step_a a2 a3 (rep 0xa#8)
  let a5 : U128 := step_b a4 (rep 8#8)
  let a4 : U128 := (a4 ^^^ (a5 >>> 2)) &&& (rep 3#8)
  let a4 : U128 := a4 ^^^ ((a4 &&& (rep 2#8)) >>> 1)
  let a4 : U128 := a4 ||| (a4 <<< 2)
  let a3 : U128 := step_a a2 a4 (rep 0xa#8)
  let a3 : U128 := a3 ||| (a3 <<< 4)
  let a2 : U128 := swap2 a1
  let x : U128 := step_a a1 a3 (rep 0xaa#8)
  let a4 : U128 := step_a a2 a3 (rep 0xaa#8)
  let a5 : U128 := (x &&& (rep 0xcc#8)) >>> 2
  let x : U128 := x ^^^ (((a4 <<< 2) ^^^ a4) &&& (rep 0xcc#8))
  let a4 : U128 := step_b a5 (rep 0x22#8)
  let x : U128 := x ^^^ a4
  let y : U128 := ror1 x
  let x : U128 := (x &&& (rep 0x39#8)) ^^^ (y &&& (rep 0x3f#8))
  let y : U128 := ((y &&& (rep 0xfc#8)) >>> 2) ||| ((y &&& (rep 3#8)) <<< 6)
  let x : U128 := x ^^^ (y &&& (rep 0x97#8))
  let y : U128 := ror1 y
  let x : U128 := x ^^^ (y &&& (rep 0x9b#8))
  let y : U128 := ror1 y
  let x : U128 := x ^^^ (y &&& (rep 0x3c#8))
  let y : U128 := ror1 y
  let x : U128 := x ^^^ (y &&& (rep 0xdd#8))
  let y : U128 := ror1 y
  let x : U128 := x ^^^ (y &&& (rep 0x72#8))
  x ^^^ (rep 0x63#8)

/-- src/aes_bitslice.rs:32-35 `sub_word`. -/
def sub_word (x : U32) : U32 :=
  (subbytes (x.setWidth 128)).setWidth 32

/-- src/aes_bitslice.rs:98-161 `invsubbytes`. -/
def invsubbytes (x : U128) : U128 :=
  let x : U128 := x ^^^ (rep 0x63#8)
  let y : U128 := ror1 x
  let x : U128 := (x &&& (rep 0xfd#8)) ^^^ (y &&& (rep 0x5e#8))
  let y : U128 := ror1 y
  let x : U128 := x ^^^ (y &&& (rep 0xf3#8))
  let y : U128 := ror1 y
  let x : U128 := x ^^^ (y &&& (rep 0xf5#8))
  let y : U128 := ror1 y
  let x : U128 := x ^^^ (y &&& (rep 0x78#8))
  let y : U128 := ror1 y
  let x : U128 := x ^^^ (y &&& (rep 0x77#8))
  let y : U128 := ror1 y
  let x : U128 := x ^^^ (y &&& (rep 0x15#8))
  let y : U128 := ror1 y
  let x : U128 := x ^^^ (y &&& (rep 0xa5#8))
  let a1 : U128 := x ^^^ ((x &&& (rep 0xf0#8)) >>> 4)
  let a2 : U128 := swap2 x
  let a3 : U128 := step_a x a1 (rep 0xaa#8)
  let a4 : U128 := step_a a1 a2 (rep 0xaa#8)
  let a5 : U128 := (a3 &&& (rep 0xcc#8)) >>> 2
  let a3 : U128 := a3 ^^^ (((a4 <<< 2) ^^^ a4) &&& (rep 0xcc#8))
  let a4 : U128 := step_b a5 (rep 0x22#8)
  let a3 : U128 := a3 ^^^ a4
  let a5 : U128 := step_b a3 (rep 0xa0#8)
  let a4 : U128 := a5 &&& (rep 0xc0#8)
  let a6 : U128 := a4 >>> 2
  let a4 : U128 := a4 ^^^ ((a5 <<< 2) &&& (rep 0xc0#8))
  let a5 : U128 := step_b a6 (rep 0x20#8)
  let a4 : U128 := a4 ||| a5
  let a3 : U128 := (a3 ^^^ (a4 >>> 4)) &&& (rep 0xf#8)
  let a2 : U128 := a3 ^^^ ((a3 &&& (rep 0xc#8)) >>> 2)
  let a4 : U128 := step_a a2 a3 (rep 0xa#8)
  let a5 : U128 := step_b a4 (rep 8#8)
  let a4 : U128 := (a4 ^^^ (a5 >>> 2)) &&& (rep 3#8)
  let a4 : U128 := a4 ^^^ ((a4 &&& (rep 2#8)) >>> 1)
  let a4 : U128 := a4 ||| (a4 <<< 2)
  let a3 : U128 := step_a a2 a4 (rep 0xa#8)
  let a3 : U128 := a3 ||| (a3 <<< 4)
  let a2 : U128 := swap2 a1
  let x : U128 := step_a a1 a3 (rep 0xaa#8)
  let a4 : U128 := step_a a2 a3 (rep 0xaa#8)
  let a5 : U128 := (x &&& (rep 0xcc#8)) >>> 2
  let x : U128 := x ^^^ (((a4 <<< 2) ^^^ a4) &&& (rep 0xcc#8))
  let a4 : U128 := step_b a5 (rep 0x22#8)
  let x : U128 := x ^^^ a4
  let y : U128 := ror1 x
  let x : U128 := (x &&& (rep 0xb5#8)) ^^^ (y &&& (rep 0x40#8))
  let y : U128 := ror1 y
  let x : U128 := x ^^^ (y &&& (rep 0x80#8))
  let y : U128 := ror1 y
  let x : U128 := x ^^^ (y &&& (rep 0x16#8))
  let y : U128 := ror1 y
  let x : U128 := x ^^^ (y &&& (rep 0xeb#8))
  let y : U128 := ror1 y
  let x : U128 := x ^^^ (y &&& (rep 0x97#8))
  let y : U128 := ror1 y
  let x : U128 := x ^^^ (y &&& (rep 0xfb#8))
  let y : U128 := ror1 y
  x ^^^ (y &&& (rep 0x7d#8))

/-- src/aes_bitslice.rs:163-168 `shiftrows`. -/
def shiftrows (state : Vector U8 16) : U128 :=
  fromNe Cfg.endian 128 #v[state[0], state[5], state[10], state[15], state[4], state[9], state[14], state[3], state[8], state[13], state[2], state[7], state[12], state[1], state[6], state[11]]

/-- src/aes_bitslice.rs:170-175 `invshiftrows`. -/
def invshiftrows (state : Vector U8 16) : U128 :=
  fromNe Cfg.endian 128 #v[state[0], state[13], state[10], state[7], state[4], state[1], state[14], state[11], state[8], state[5], state[2], state[15], state[12], state[9], state[6], state[3]]

/-- src/aes_bitslice.rs:178-183 `xtime`. -/
def xtime (a : U128) : U128 :=
  let b : U128 := a &&& (rep 0x80#8)
  let a : U128 := a ^^^ b
  let b : U128 := (b - (b >>> 7)) &&& (rep 0x1b#8)
  b ^^^ (a <<< 1)

/-- src/aes_bitslice.rs:186-189 `swap16`. -/
def swap16 (x : U128) : U128 :=
  ((x &&& 0xffff0000ffff0000ffff0000ffff0000#128) >>> 16) ||| ((x &&& 0xffff0000ffff0000ffff0000ffff#128) <<< 16)

/-- src/aes_bitslice.rs:192-195 `swap8`. -/
def swap8 (x : U128) : U128 :=
  ((x &&& 0xff00ff00ff00ff00ff00ff00ff00ff00#128) >>> 8) ||| ((x &&& 0xff00ff00ff00ff00ff00ff00ff00ff#128) <<< 8)

/-- src/aes_bitslice.rs:198-206 `ror8_32`. -/
def ror8_32 (x : U128) : U128 :=
  if Cfg.endian = .big then
    ((x &&& 0xffffff00ffffff00ffffff00ffffff#128) <<< 8) ||| ((x &&& 0xff000000ff000000ff000000ff000000#128) >>> 24)
  else
    ((x &&& 0xffffff00ffffff00ffffff00ffffff00#128) >>> 8) ^^^ ((x &&& 0xff000000ff000000ff000000ff#128) <<< 24)

/-- src/aes_bitslice.rs:208-214 `mixcolumns`. -/
def mixcolumns (state : U128) : U128 :=
  let s : U128 := state ^^^ (swap16 state)
  let s : U128 := (s ^^^ (swap8 s)) ^^^ state
  let t : U128 := xtime state
  (s ^^^ t) ^^^ (ror8_32 t)

/-- src/aes_bitslice.rs:216-228 `invmixcolumns`. -/
def invmixcolumns (state : U128) : U128 :=
  let s : U128 := state ^^^ (swap16 state)
  let s : U128 := (s ^^^ (swap8 s)) ^^^ state
  let t : U128 := xtime state
  let s : U128 := (s ^^^ t) ^^^ (ror8_32 t)
  let t : U128 := xtime t
  let t : U128 := t ^^^ (swap16 t)
  let s : U128 := s ^^^ t
  let t : U128 := xtime t
  (s ^^^ t) ^^^ (swap8 t)

/-- src/aes_bitslice.rs:280-282 `new`. -/
def new (value : Vector U8 16) : (Aes.Bitslice.Block Cfg.endian) :=
  (⟨fromNe Cfg.endian 128 value⟩ : (Aes.Bitslice.Block Cfg.endian))

/-- src/aes_bitslice.rs:237-239 `from`. -/
def from_bytes (value : Vector U8 16) : (Aes.Bitslice.Block Cfg.endian) :=
  new value

/-- src/aes_bitslice.rs:246-248 `bitand`. -/
def bitand (self : (Aes.Bitslice.Block Cfg.endian)) (rhs : (Aes.Bitslice.Block Cfg.endian)) : (Aes.Bitslice.Block Cfg.endian) :=
  (⟨self.val &&& rhs.val⟩ : (Aes.Bitslice.Block Cfg.endian))

/-- src/aes_bitslice.rs:255-257 `bitor`. -/
def bitor (self : (Aes.Bitslice.Block Cfg.endian)) (rhs : (Aes.Bitslice.Block Cfg.endian)) : (Aes.Bitslice.Block Cfg.endian) :=
  (⟨self.val ||| rhs.val⟩ : (Aes.Bitslice.Block Cfg.endian))

/-- src/aes_bitslice.rs:264-266 `bitxor`. -/
def bitxor (self : (Aes.Bitslice.Block Cfg.endian)) (rhs : (Aes.Bitslice.Block Cfg.endian)) : (Aes.Bitslice.Block Cfg.endian) :=
  (⟨self.val ^^^ rhs.val⟩ : (Aes.Bitslice.Block Cfg.endian))

/-- src/aes_bitslice.rs:273-275 `not`. -/
def not (self : (Aes.Bitslice.Block Cfg.endian)) : (Aes.Bitslice.Block Cfg.endian) :=
  (⟨~~~self.val⟩ : (Aes.Bitslice.Block Cfg.endian))

/-- src/aes_bitslice.rs:285-288 `store_to`. -/
def store_to (self : (Aes.Bitslice.Block Cfg.endian)) (dst : List U8) : M (List U8) := do
  assert (decide (dst.length ≥ 16))
  let dst ← onTo dst 16 (fun s => do copyFromSlice s ((toNe Cfg.endian 16 self.val).toList))
  pure dst

/-- src/aes_bitslice.rs:291-293 `zero`. -/
def zero : (Aes.Bitslice.Block Cfg.endian) :=
  (⟨0#128⟩ : (Aes.Bitslice.Block Cfg.endian))

/-- src/aes_bitslice.rs:297-299 `is_zero`. -/
def is_zero (self : (Aes.Bitslice.Block Cfg.endian)) : Bool :=
  self.val == 0#128

/-- src/aes_bitslice.rs:327-329 `mc`. -/
def mc (self : (Aes.Bitslice.Block Cfg.endian)) : (Aes.Bitslice.Block Cfg.endian) :=
  (⟨mixcolumns self.val⟩ : (Aes.Bitslice.Block Cfg.endian))

/-- src/aes_bitslice.rs:303-305 `enc`. -/
def enc (self : (Aes.Bitslice.Block Cfg.endian)) (round_key : (Aes.Bitslice.Block Cfg.endian)) : (Aes.Bitslice.Block Cfg.endian) :=
  bitxor (mc (⟨subbytes (shiftrows (toNe Cfg.endian 16 self.val))⟩ : (Aes.Bitslice.Block Cfg.endian))) round_key

/-- src/aes_bitslice.rs:333-335 `imc`. -/
def imc (self : (Aes.Bitslice.Block Cfg.endian)) : (Aes.Bitslice.Block Cfg.endian) :=
  (⟨invmixcolumns self.val⟩ : (Aes.Bitslice.Block Cfg.endian))

/-- src/aes_bitslice.rs:309-311 `dec`. -/
def dec (self : (Aes.Bitslice.Block Cfg.endian)) (round_key : (Aes.Bitslice.Block Cfg.endian)) : (Aes.Bitslice.Block Cfg.endian) :=
  bitxor (imc (⟨invsubbytes (invshiftrows (toNe Cfg.endian 16 self.val))⟩ : (Aes.Bitslice.Block Cfg.endian))) round_key

/-- src/aes_bitslice.rs:315-317 `enc_last`. -/
def enc_last (self : (Aes.Bitslice.Block Cfg.endian)) (round_key : (Aes.Bitslice.Block Cfg.endian)) : (Aes.Bitslice.Block Cfg.endian) :=
  bitxor (⟨subbytes (shiftrows (toNe Cfg.endian 16 self.val))⟩ : (Aes.Bitslice.Block Cfg.endian)) round_key

/-- src/aes_bitslice.rs:321-323 `dec_last`. -/
def dec_last (self : (Aes.Bitslice.Block Cfg.endian)) (round_key : (Aes.Bitslice.Block Cfg.endian)) : (Aes.Bitslice.Block Cfg.endian) :=
  bitxor (⟨invsubbytes (invshiftrows (toNe Cfg.endian 16 self.val))⟩ : (Aes.Bitslice.Block Cfg.endian)) round_key

/-- src/aes_bitslice.rs:340-356 `keygen_128`. -/
def keygen_128 (key : Vector U8 16) : M (Vector (Aes.Bitslice.Block Cfg.endian) 11) := do
  let expanded_keys : Vector (Aes.Bitslice.Block Cfg.endian) 11 := zeroed
  let columns : Vector U32 44 ← castView expanded_keys 44
  let columns ← (enumerate (chunksExact 4 key.toList)).foldlM (fun columns (i, chunk) => do
      let columns ← upd columns i (fromNe Cfg.endian 32 (← arrayTryFrom 4 chunk))
      pure columns) columns
  let columns ← (rangeStep 0 40 4).foldlM (fun columns i => do
      let columns ← upd columns (← Aes.Profile.uadd Cfg.profile i 4) (((← idx columns (← Aes.Profile.uadd Cfg.profile i 0)) ^^^ ((sub_word (← idx columns (← Aes.Profile.uadd Cfg.profile i 3))).rotateRight 8)) ^^^ (← idx RCON (i / 4)))
      let columns ← upd columns (← Aes.Profile.uadd Cfg.profile i 5) ((← idx columns (← Aes.Profile.uadd Cfg.profile i 1)) ^^^ (← idx columns (← Aes.Profile.uadd Cfg.profile i 4)))
      let columns ← upd columns (← Aes.Profile.uadd Cfg.profile i 6) ((← idx columns (← Aes.Profile.uadd Cfg.profile i 2)) ^^^ (← idx columns (← Aes.Profile.uadd Cfg.profile i 5)))
      let columns ← upd columns (← Aes.Profile.uadd Cfg.profile i 7) ((← idx columns (← Aes.Profile.uadd Cfg.profile i 3)) ^^^ (← idx columns (← Aes.Profile.uadd Cfg.profile i 6)))
      pure columns) columns
  let expanded_keys : Vector (Aes.Bitslice.Block Cfg.endian) 11 := castBack expanded_keys columns
  pure expanded_keys

/-- src/aes_bitslice.rs:358-381 `keygen_192`. -/
def keygen_192 (key : Vector U8 24) : M (Vector (Aes.Bitslice.Block Cfg.endian) 13) := do
  let expanded_keys : Vector (Aes.Bitslice.Block Cfg.endian) 13 := zeroed
  let columns : Vector U32 52 ← castView expanded_keys 52
  let columns ← (enumerate (chunksExact 4 key.toList)).foldlM (fun columns (i, chunk) => do
      let columns ← upd columns i (fromNe Cfg.endian 32 (← arrayTryFrom 4 chunk))
      pure columns) columns
  let columns ← (rangeStep 0 42 6).foldlM (fun columns i => do
      let columns ← upd columns (← Aes.Profile.uadd Cfg.profile i 6) (((← idx columns (← Aes.Profile.uadd Cfg.profile i 0)) ^^^ ((sub_word (← idx columns (← Aes.Profile.uadd Cfg.profile i 5))).rotateRight 8)) ^^^ (← idx RCON (i / 6)))
      let columns ← upd columns (← Aes.Profile.uadd Cfg.profile i 7) ((← idx columns (← Aes.Profile.uadd Cfg.profile i 1)) ^^^ (← idx columns (← Aes.Profile.uadd Cfg.profile i 6)))
      let columns ← upd columns (← Aes.Profile.uadd Cfg.profile i 8) ((← idx columns (← Aes.Profile.uadd Cfg.profile i 2)) ^^^ (← idx columns (← Aes.Profile.uadd Cfg.profile i 7)))
      let columns ← upd columns (← Aes.Profile.uadd Cfg.profile i 9) ((← idx columns (← Aes.Profile.uadd Cfg.profile i 3)) ^^^ (← idx columns (← Aes.Profile.uadd Cfg.profile i 8)))
      let columns ← upd columns (← Aes.Profile.uadd Cfg.profile i 10) ((← idx columns (← Aes.Profile.uadd Cfg.profile i 4)) ^^^ (← idx columns (← Aes.Profile.uadd Cfg.profile i 9)))
      let columns ← upd columns (← Aes.Profile.uadd Cfg.profile i 11) ((← idx columns (← Aes.Profile.uadd Cfg.profile i 5)) ^^^ (← idx columns (← Aes.Profile.uadd Cfg.profile i 10)))
      pure columns) columns
  let columns ← upd columns 48 (((← idx columns 42) ^^^ ((sub_word (← idx columns 47)).rotateRight 8)) ^^^ RCON[7])
  let columns ← upd columns 49 ((← idx columns 43) ^^^ (← idx columns 48))
  let columns ← upd columns 50 ((← idx columns 44) ^^^ (← idx columns 49))
  let columns ← upd columns 51 ((← idx columns 45) ^^^ (← idx columns 50))
  let expanded_keys : Vector (Aes.Bitslice.Block Cfg.endian) 13 := castBack expanded_keys columns
  pure expanded_keys

/-- src/aes_bitslice.rs:383-408 `keygen_256`. -/
def keygen_256 (key : Vector U8 32) : M (Vector (Aes.Bitslice.Block Cfg.endian) 15) := do
  let expanded_keys : Vector (Aes.Bitslice.Block Cfg.endian) 15 := zeroed
  let columns : Vector U32 60 ← castView expanded_keys 60
  let columns ← (enumerate (chunksExact 4 key.toList)).foldlM (fun columns (i, chunk) => do
      let columns ← upd columns i (fromNe Cfg.endian 32 (← arrayTryFrom 4 chunk))
      pure columns) columns
  let columns ← (rangeStep 0 48 8).foldlM (fun columns i => do
      let columns ← upd columns (← Aes.Profile.uadd Cfg.profile i 8) (((← idx columns (← Aes.Profile.uadd Cfg.profile i 0)) ^^^ ((sub_word (← idx columns (← Aes.Profile.uadd Cfg.profile i 7))).rotateRight 8)) ^^^ (← idx RCON (i / 8)))
      let columns ← upd columns (← Aes.Profile.uadd Cfg.profile i 9) ((← idx columns (← Aes.Profile.uadd Cfg.profile i 1)) ^^^ (← idx columns (← Aes.Profile.uadd Cfg.profile i 8)))
      let columns ← upd columns (← Aes.Profile.uadd Cfg.profile i 10) ((← idx columns (← Aes.Profile.uadd Cfg.profile i 2)) ^^^ (← idx columns (← Aes.Profile.uadd Cfg.profile i 9)))
      let columns ← upd columns (← Aes.Profile.uadd Cfg.profile i 11) ((← idx columns (← Aes.Profile.uadd Cfg.profile i 3)) ^^^ (← idx columns (← Aes.Profile.uadd Cfg.profile i 10)))
      let columns ← upd columns (← Aes.Profile.uadd Cfg.profile i 12) ((← idx columns (← Aes.Profile.uadd Cfg.profile i 4)) ^^^ (sub_word (← idx columns (← Aes.Profile.uadd Cfg.profile i 11))))
      let columns ← upd columns (← Aes.Profile.uadd Cfg.profile i 13) ((← idx columns (← Aes.Profile.uadd Cfg.profile i 5)) ^^^ (← idx columns (← Aes.Profile.uadd Cfg.profile i 12)))
      let columns ← upd columns (← Aes.Profile.uadd Cfg.profile i 14) ((← idx columns (← Aes.Profile.uadd Cfg.profile i 6)) ^^^ (← idx columns (← Aes.Profile.uadd Cfg.profile i 13)))
      let columns ← upd columns (← Aes.Profile.uadd Cfg.profile i 15) ((← idx columns (← Aes.Profile.uadd Cfg.profile i 7)) ^^^ (← idx columns (← Aes.Profile.uadd Cfg.profile i 14)))
      pure columns) columns
  let columns ← upd columns 56 (((← idx columns 48) ^^^ ((sub_word (← idx columns 55)).rotateRight 8)) ^^^ RCON[6])
  let columns ← upd columns 57 ((← idx columns 49) ^^^ (← idx columns 56))
  let columns ← upd columns 58 ((← idx columns 50) ^^^ (← idx columns 57))
  let columns ← upd columns 59 ((← idx columns 51) ^^^ (← idx columns 58))
  let expanded_keys : Vector (Aes.Bitslice.Block Cfg.endian) 15 := castBack expanded_keys columns
  pure expanded_keys

/-- What src/aes_bitslice.rs provides to the rest of the crate. -/
@[reducible] def block : Aes.AesBlock (Aes.Bitslice.Block Cfg.endian) where
  new := fun a0 => pure (new a0)
  from_bytes := fun a0 => pure (from_bytes a0)
  store_to := store_to
  zero := zero
  is_zero := is_zero
  eq := eq
  bitand := bitand
  bitor := bitor
  bitxor := bitxor
  not := not
  enc := enc
  dec := dec
  enc_last := enc_last
  dec_last := dec_last
  pre := none
  mc := mc
  imc := imc
  keygen_128 := keygen_128
  keygen_192 := keygen_192
  keygen_256 := keygen_256

end RustSrc.Bitslice
