import Verif.Gen.LeakCore
import Verif.Gen.LeakIntrinsics
import Verif.Gen.Bitslice
/-
src/aes_bitslice.rs, function by function, with the trace of every call.
Generated by tools/rust2lean.py; do not edit.
-/
namespace RustSrc.Leak.Bitslice
open Rust
open RustSrc.Leak.Core
variable [Cfg]

/-- src/aes_bitslice.rs:230-233 `#[derive(PartialEq)]`. -/
def eq (self other : (Aes.Bitslice.Block Cfg.endian)) : Aes.Leak.L Bool :=
  Aes.Leak.eqw self.val other.val

/-- src/aes_bitslice.rs:5-7 `rep`. -/
def rep (x : U8) : Aes.Leak.L U128 :=
  Aes.Leak.emit .move (fromNe Cfg.endian 128 (Vector.replicate 16 x))

/-- src/aes_bitslice.rs:10-12 `ror1`. -/
def ror1 (x : U128) : Aes.Leak.L U128 := do
  Aes.Leak.or (← Aes.Leak.shr (← Aes.Leak.and x (RustSrc.Bitslice.rep 0xfe#8)) 1) (← Aes.Leak.shl (← Aes.Leak.and x (RustSrc.Bitslice.rep 1#8)) 7)

/-- src/aes_bitslice.rs:15-17 `swap2`. -/
def swap2 (x : U128) : Aes.Leak.L U128 := do
  Aes.Leak.or (← Aes.Leak.shr (← Aes.Leak.and x (RustSrc.Bitslice.rep 0xcc#8)) 2) (← Aes.Leak.shl (← Aes.Leak.and x (RustSrc.Bitslice.rep 0x33#8)) 2)

/-- src/aes_bitslice.rs:20-23 `step_a`. -/
def step_a (a : U128) (b : U128) (mask : U128) : Aes.Leak.L U128 := do
  let x : U128 ← Aes.Leak.and a b
  Aes.Leak.xor (← Aes.Leak.xor x (← Aes.Leak.shr (← Aes.Leak.and x mask) 1)) (← Aes.Leak.and (← Aes.Leak.xor (← Aes.Leak.and (← Aes.Leak.shl a 1) b) (← Aes.Leak.and (← Aes.Leak.shl b 1) a)) mask)

/-- src/aes_bitslice.rs:26-29 `step_b`. -/
def step_b (a : U128) (mask : U128) : Aes.Leak.L U128 := do
  let x : U128 ← Aes.Leak.and a mask
  Aes.Leak.xor (← Aes.Leak.or x (← Aes.Leak.shr x 1)) (← Aes.Leak.and (← Aes.Leak.shl a 1) mask)

/-- src/aes_bitslice.rs:37-96 `subbytes`. -/
def subbytes (x : U128) : Aes.Leak.L U128 := do
  let y : U128 ← ror1 x
  let x : U128 ← Aes.Leak.xor (← Aes.Leak.and x (RustSrc.Bitslice.rep 0xdd#8)) (← Aes.Leak.and y (RustSrc.Bitslice.rep 0x57#8))
  let y : U128 ← ror1 y
  let x : U128 ← Aes.Leak.xor x (← Aes.Leak.and y (RustSrc.Bitslice.rep 0x1c#8))
  let y : U128 ← ror1 y
  let x : U128 ← Aes.Leak.xor x (← Aes.Leak.and y (RustSrc.Bitslice.rep 0x4a#8))
  let y : U128 ← ror1 y
  let x : U128 ← Aes.Leak.xor x (← Aes.Leak.and y (RustSrc.Bitslice.rep 0x42#8))
  let y : U128 ← ror1 y
  let x : U128 ← Aes.Leak.xor x (← Aes.Leak.and y (RustSrc.Bitslice.rep 0x64#8))
  let y : U128 ← ror1 y
  let x : U128 ← Aes.Leak.xor x (← Aes.Leak.and y (RustSrc.Bitslice.rep 0xe0#8))
  let a1 : U128 ← Aes.Leak.xor x (← Aes.Leak.shr (← Aes.Leak.and x (RustSrc.Bitslice.rep 0xf0#8)) 4)
  let a2 : U128 ← swap2 x
  let a3 : U128 ← step_a x a1 (RustSrc.Bitslice.rep 0xaa#8)
  let a4 : U128 ← step_a a1 a2 (RustSrc.Bitslice.rep 0xaa#8)
  let a5 : U128 ← Aes.Leak.shr (← Aes.Leak.and a3 (RustSrc.Bitslice.rep 0xcc#8)) 2
  let a3 : U128 ← Aes.Leak.xor a3 (← Aes.Leak.and (← Aes.Leak.xor (← Aes.Leak.shl a4 2) a4) (RustSrc.Bitslice.rep 0xcc#8))
  let a4 : U128 ← step_b a5 (RustSrc.Bitslice.rep 0x22#8)
  let a3 : U128 ← Aes.Leak.xor a3 a4
  let a5 : U128 ← step_b a3 (RustSrc.Bitslice.rep 0xa0#8)
  let a4 : U128 ← Aes.Leak.and a5 (RustSrc.Bitslice.rep 0xc0#8)
  let a6 : U128 ← Aes.Leak.shr a4 2
  let a4 : U128 ← Aes.Leak.xor a4 (← Aes.Leak.and (← Aes.Leak.shl a5 2) (RustSrc.Bitslice.rep 0xc0#8))
  let a5 : U128 ← step_b a6 (RustSrc.Bitslice.rep 0x20#8)
  let a4 : U128 ← Aes.Leak.or a4 a5
  let a3 : U128 ← Aes.Leak.and (← Aes.Leak.xor a3 (← Aes.Leak.shr a4 4)) (RustSrc.Bitslice.rep 0xf#8)
  let a2 : U128 ← Aes.Leak.xor a3 (← Aes.Leak.shr (← Aes.Leak.and a3 (RustSrc.Bitslice.rep 0xc#8)) 2)
  let a4 : U128 ← step_a a2 a3 (RustSrc.Bitslice.rep 0xa#8)
  let a5 : U128 ← step_b a4 (RustSrc.Bitslice.rep 8#8)
  let a4 : U128 ← Aes.Leak.and (← Aes.Leak.xor a4 (← Aes.Leak.shr a5 2)) (RustSrc.Bitslice.rep 3#8)
  let a4 : U128 ← Aes.Leak.xor a4 (← Aes.Leak.shr (← Aes.Leak.and a4 (RustSrc.Bitslice.rep 2#8)) 1)
  let a4 : U128 ← Aes.Leak.or a4 (← Aes.Leak.shl a4 2)
  let a3 : U128 ← step_a a2 a4 (RustSrc.Bitslice.rep 0xa#8)
  let a3 : U128 ← Aes.Leak.or a3 (← Aes.Leak.shl a3 4)
  let a2 : U128 ← swap2 a1
  let x : U128 ← step_a a1 a3 (RustSrc.Bitslice.rep 0xaa#8)
  let a4 : U128 ← step_a a2 a3 (RustSrc.Bitslice.rep 0xaa#8)
  let a5 : U128 ← Aes.Leak.shr (← Aes.Leak.and x (RustSrc.Bitslice.rep 0xcc#8)) 2
  let x : U128 ← Aes.Leak.xor x (← Aes.Leak.and (← Aes.Leak.xor (← Aes.Leak.shl a4 2) a4) (RustSrc.Bitslice.rep 0xcc#8))
  let a4 : U128 ← step_b a5 (RustSrc.Bitslice.rep 0x22#8)
  let x : U128 ← Aes.Leak.xor x a4
  let y : U128 ← ror1 x
  let x : U128 ← Aes.Leak.xor (← Aes.Leak.and x (RustSrc.Bitslice.rep 0x39#8)) (← Aes.Leak.and y (RustSrc.Bitslice.rep 0x3f#8))
  let y : U128 ← Aes.Leak.or (← Aes.Leak.shr (← Aes.Leak.and y (RustSrc.Bitslice.rep 0xfc#8)) 2) (← Aes.Leak.shl (← Aes.Leak.and y (RustSrc.Bitslice.rep 3#8)) 6)
  let x : U128 ← Aes.Leak.xor x (← Aes.Leak.and y (RustSrc.Bitslice.rep 0x97#8))
  let y : U128 ← ror1 y
  let x : U128 ← Aes.Leak.xor x (← Aes.Leak.and y (RustSrc.Bitslice.rep 0x9b#8))
  let y : U128 ← ror1 y
  let x : U128 ← Aes.Leak.xor x (← Aes.Leak.and y (RustSrc.Bitslice.rep 0x3c#8))
  let y : U128 ← ror1 y
  let x : U128 ← Aes.Leak.xor x (← Aes.Leak.and y (RustSrc.Bitslice.rep 0xdd#8))
  let y : U128 ← ror1 y
  let x : U128 ← Aes.Leak.xor x (← Aes.Leak.and y (RustSrc.Bitslice.rep 0x72#8))
  Aes.Leak.xor x (RustSrc.Bitslice.rep 0x63#8)

/-- src/aes_bitslice.rs:32-35 `sub_word`. -/
def sub_word (x : U32) : Aes.Leak.L U32 := do
  Aes.Leak.cast 32 (← subbytes (← Aes.Leak.cast 128 x))

/-- src/aes_bitslice.rs:98-161 `invsubbytes`. -/
def invsubbytes (x : U128) : Aes.Leak.L U128 := do
  let x : U128 ← Aes.Leak.xor x (RustSrc.Bitslice.rep 0x63#8)
  let y : U128 ← ror1 x
  let x : U128 ← Aes.Leak.xor (← Aes.Leak.and x (RustSrc.Bitslice.rep 0xfd#8)) (← Aes.Leak.and y (RustSrc.Bitslice.rep 0x5e#8))
  let y : U128 ← ror1 y
  let x : U128 ← Aes.Leak.xor x (← Aes.Leak.and y (RustSrc.Bitslice.rep 0xf3#8))
  let y : U128 ← ror1 y
  let x : U128 ← Aes.Leak.xor x (← Aes.Leak.and y (RustSrc.Bitslice.rep 0xf5#8))
  let y : U128 ← ror1 y
  let x : U128 ← Aes.Leak.xor x (← Aes.Leak.and y (RustSrc.Bitslice.rep 0x78#8))
  let y : U128 ← ror1 y
  let x : U128 ← Aes.Leak.xor x (← Aes.Leak.and y (RustSrc.Bitslice.rep 0x77#8))
  let y : U128 ← ror1 y
  let x : U128 ← Aes.Leak.xor x (← Aes.Leak.and y (RustSrc.Bitslice.rep 0x15#8))
  let y : U128 ← ror1 y
  let x : U128 ← Aes.Leak.xor x (← Aes.Leak.and y (RustSrc.Bitslice.rep 0xa5#8))
  let a1 : U128 ← Aes.Leak.xor x (← Aes.Leak.shr (← Aes.Leak.and x (RustSrc.Bitslice.rep 0xf0#8)) 4)
  let a2 : U128 ← swap2 x
  let a3 : U128 ← step_a x a1 (RustSrc.Bitslice.rep 0xaa#8)
  let a4 : U128 ← step_a a1 a2 (RustSrc.Bitslice.rep 0xaa#8)
  let a5 : U128 ← Aes.Leak.shr (← Aes.Leak.and a3 (RustSrc.Bitslice.rep 0xcc#8)) 2
  let a3 : U128 ← Aes.Leak.xor a3 (← Aes.Leak.and (← Aes.Leak.xor (← Aes.Leak.shl a4 2) a4) (RustSrc.Bitslice.rep 0xcc#8))
  let a4 : U128 ← step_b a5 (RustSrc.Bitslice.rep 0x22#8)
  let a3 : U128 ← Aes.Leak.xor a3 a4
  let a5 : U128 ← step_b a3 (RustSrc.Bitslice.rep 0xa0#8)
  let a4 : U128 ← Aes.Leak.and a5 (RustSrc.Bitslice.rep 0xc0#8)
  let a6 : U128 ← Aes.Leak.shr a4 2
  let a4 : U128 ← Aes.Leak.xor a4 (← Aes.Leak.and (← Aes.Leak.shl a5 2) (RustSrc.Bitslice.rep 0xc0#8))
  let a5 : U128 ← step_b a6 (RustSrc.Bitslice.rep 0x20#8)
  let a4 : U128 ← Aes.Leak.or a4 a5
  let a3 : U128 ← Aes.Leak.and (← Aes.Leak.xor a3 (← Aes.Leak.shr a4 4)) (RustSrc.Bitslice.rep 0xf#8)
  let a2 : U128 ← Aes.Leak.xor a3 (← Aes.Leak.shr (← Aes.Leak.and a3 (RustSrc.Bitslice.rep 0xc#8)) 2)
  let a4 : U128 ← step_a a2 a3 (RustSrc.Bitslice.rep 0xa#8)
  let a5 : U128 ← step_b a4 (RustSrc.Bitslice.rep 8#8)
  let a4 : U128 ← Aes.Leak.and (← Aes.Leak.xor a4 (← Aes.Leak.shr a5 2)) (RustSrc.Bitslice.rep 3#8)
  let a4 : U128 ← Aes.Leak.xor a4 (← Aes.Leak.shr (← Aes.Leak.and a4 (RustSrc.Bitslice.rep 2#8)) 1)
  let a4 : U128 ← Aes.Leak.or a4 (← Aes.Leak.shl a4 2)
  let a3 : U128 ← step_a a2 a4 (RustSrc.Bitslice.rep 0xa#8)
  let a3 : U128 ← Aes.Leak.or a3 (← Aes.Leak.shl a3 4)
  let a2 : U128 ← swap2 a1
  let x : U128 ← step_a a1 a3 (RustSrc.Bitslice.rep 0xaa#8)
  let a4 : U128 ← step_a a2 a3 (RustSrc.Bitslice.rep 0xaa#8)
  let a5 : U128 ← Aes.Leak.shr (← Aes.Leak.and x (RustSrc.Bitslice.rep 0xcc#8)) 2
  let x : U128 ← Aes.Leak.xor x (← Aes.Leak.and (← Aes.Leak.xor (← Aes.Leak.shl a4 2) a4) (RustSrc.Bitslice.rep 0xcc#8))
  let a4 : U128 ← step_b a5 (RustSrc.Bitslice.rep 0x22#8)
  let x : U128 ← Aes.Leak.xor x a4
  let y : U128 ← ror1 x
  let x : U128 ← Aes.Leak.xor (← Aes.Leak.and x (RustSrc.Bitslice.rep 0xb5#8)) (← Aes.Leak.and y (RustSrc.Bitslice.rep 0x40#8))
  let y : U128 ← ror1 y
  let x : U128 ← Aes.Leak.xor x (← Aes.Leak.and y (RustSrc.Bitslice.rep 0x80#8))
  let y : U128 ← ror1 y
  let x : U128 ← Aes.Leak.xor x (← Aes.Leak.and y (RustSrc.Bitslice.rep 0x16#8))
  let y : U128 ← ror1 y
  let x : U128 ← Aes.Leak.xor x (← Aes.Leak.and y (RustSrc.Bitslice.rep 0xeb#8))
  let y : U128 ← ror1 y
  let x : U128 ← Aes.Leak.xor x (← Aes.Leak.and y (RustSrc.Bitslice.rep 0x97#8))
  let y : U128 ← ror1 y
  let x : U128 ← Aes.Leak.xor x (← Aes.Leak.and y (RustSrc.Bitslice.rep 0xfb#8))
  let y : U128 ← ror1 y
  Aes.Leak.xor x (← Aes.Leak.and y (RustSrc.Bitslice.rep 0x7d#8))

/-- src/aes_bitslice.rs:163-168 `shiftrows`. -/
def shiftrows (state : Vector U8 16) : Aes.Leak.L U128 := do
  Aes.Leak.emit .move (fromNe Cfg.endian 128 #v[(← Aes.Leak.idx .data state 0), (← Aes.Leak.idx .data state 5), (← Aes.Leak.idx .data state 10), (← Aes.Leak.idx .data state 15), (← Aes.Leak.idx .data state 4), (← Aes.Leak.idx .data state 9), (← Aes.Leak.idx .data state 14), (← Aes.Leak.idx .data state 3), (← Aes.Leak.idx .data state 8), (← Aes.Leak.idx .data state 13), (← Aes.Leak.idx .data state 2), (← Aes.Leak.idx .data state 7), (← Aes.Leak.idx .data state 12), (← Aes.Leak.idx .data state 1), (← Aes.Leak.idx .data state 6), (← Aes.Leak.idx .data state 11)])

/-- src/aes_bitslice.rs:170-175 `invshiftrows`. -/
def invshiftrows (state : Vector U8 16) : Aes.Leak.L U128 := do
  Aes.Leak.emit .move (fromNe Cfg.endian 128 #v[(← Aes.Leak.idx .data state 0), (← Aes.Leak.idx .data state 13), (← Aes.Leak.idx .data state 10), (← Aes.Leak.idx .data state 7), (← Aes.Leak.idx .data state 4), (← Aes.Leak.idx .data state 1), (← Aes.Leak.idx .data state 14), (← Aes.Leak.idx .data state 11), (← Aes.Leak.idx .data state 8), (← Aes.Leak.idx .data state 5), (← Aes.Leak.idx .data state 2), (← Aes.Leak.idx .data state 15), (← Aes.Leak.idx .data state 12), (← Aes.Leak.idx .data state 9), (← Aes.Leak.idx .data state 6), (← Aes.Leak.idx .data state 3)])

/-- src/aes_bitslice.rs:178-183 `xtime`. -/
def xtime (a : U128) : Aes.Leak.L U128 := do
  let b : U128 ← Aes.Leak.and a (RustSrc.Bitslice.rep 0x80#8)
  let a : U128 ← Aes.Leak.xor a b
  let b : U128 ← Aes.Leak.and (← Aes.Leak.sub b (← Aes.Leak.shr b 7)) (RustSrc.Bitslice.rep 0x1b#8)
  Aes.Leak.xor b (← Aes.Leak.shl a 1)

/-- src/aes_bitslice.rs:186-189 `swap16`. -/
def swap16 (x : U128) : Aes.Leak.L U128 := do
  Aes.Leak.or (← Aes.Leak.shr (← Aes.Leak.and x 0xffff0000ffff0000ffff0000ffff0000#128) 16) (← Aes.Leak.shl (← Aes.Leak.and x 0xffff0000ffff0000ffff0000ffff#128) 16)

/-- src/aes_bitslice.rs:192-195 `swap8`. -/
def swap8 (x : U128) : Aes.Leak.L U128 := do
  Aes.Leak.or (← Aes.Leak.shr (← Aes.Leak.and x 0xff00ff00ff00ff00ff00ff00ff00ff00#128) 8) (← Aes.Leak.shl (← Aes.Leak.and x 0xff00ff00ff00ff00ff00ff00ff00ff#128) 8)

/-- src/aes_bitslice.rs:198-206 `ror8_32`. -/
def ror8_32 (x : U128) : Aes.Leak.L U128 := do
  if Cfg.endian = .big then do
    Aes.Leak.or (← Aes.Leak.shl (← Aes.Leak.and x 0xffffff00ffffff00ffffff00ffffff#128) 8) (← Aes.Leak.shr (← Aes.Leak.and x 0xff000000ff000000ff000000ff000000#128) 24)
  else do
    Aes.Leak.xor (← Aes.Leak.shr (← Aes.Leak.and x 0xffffff00ffffff00ffffff00ffffff00#128) 8) (← Aes.Leak.shl (← Aes.Leak.and x 0xff000000ff000000ff000000ff#128) 24)

/-- src/aes_bitslice.rs:208-214 `mixcolumns`. -/
def mixcolumns (state : U128) : Aes.Leak.L U128 := do
  let s : U128 ← Aes.Leak.xor state (← swap16 state)
  let s : U128 ← Aes.Leak.xor (← Aes.Leak.xor s (← swap8 s)) state
  let t : U128 ← xtime state
  Aes.Leak.xor (← Aes.Leak.xor s t) (← ror8_32 t)

/-- src/aes_bitslice.rs:216-228 `invmixcolumns`. -/
def invmixcolumns (state : U128) : Aes.Leak.L U128 := do
  let s : U128 ← Aes.Leak.xor state (← swap16 state)
  let s : U128 ← Aes.Leak.xor (← Aes.Leak.xor s (← swap8 s)) state
  let t : U128 ← xtime state
  let s : U128 ← Aes.Leak.xor (← Aes.Leak.xor s t) (← ror8_32 t)
  let t : U128 ← xtime t
  let t : U128 ← Aes.Leak.xor t (← swap16 t)
  let s : U128 ← Aes.Leak.xor s t
  let t : U128 ← xtime t
  Aes.Leak.xor (← Aes.Leak.xor s t) (← swap8 t)

/-- src/aes_bitslice.rs:280-282 `new`. -/
def new (value : Vector U8 16) : Aes.Leak.L (Aes.Bitslice.Block Cfg.endian) := do
  pure (⟨(← Aes.Leak.emit .move (fromNe Cfg.endian 128 value))⟩ : (Aes.Bitslice.Block Cfg.endian))

/-- src/aes_bitslice.rs:237-239 `from`. -/
def from_bytes (value : Vector U8 16) : Aes.Leak.L (Aes.Bitslice.Block Cfg.endian) :=
  new value

/-- src/aes_bitslice.rs:246-248 `bitand`. -/
def bitand (self : (Aes.Bitslice.Block Cfg.endian)) (rhs : (Aes.Bitslice.Block Cfg.endian)) : Aes.Leak.L (Aes.Bitslice.Block Cfg.endian) := do
  pure (⟨(← Aes.Leak.and self.val rhs.val)⟩ : (Aes.Bitslice.Block Cfg.endian))

/-- src/aes_bitslice.rs:255-257 `bitor`. -/
def bitor (self : (Aes.Bitslice.Block Cfg.endian)) (rhs : (Aes.Bitslice.Block Cfg.endian)) : Aes.Leak.L (Aes.Bitslice.Block Cfg.endian) := do
  pure (⟨(← Aes.Leak.or self.val rhs.val)⟩ : (Aes.Bitslice.Block Cfg.endian))

/-- src/aes_bitslice.rs:264-266 `bitxor`. -/
def bitxor (self : (Aes.Bitslice.Block Cfg.endian)) (rhs : (Aes.Bitslice.Block Cfg.endian)) : Aes.Leak.L (Aes.Bitslice.Block Cfg.endian) := do
  pure (⟨(← Aes.Leak.xor self.val rhs.val)⟩ : (Aes.Bitslice.Block Cfg.endian))

/-- src/aes_bitslice.rs:273-275 `not`. -/
def not (self : (Aes.Bitslice.Block Cfg.endian)) : Aes.Leak.L (Aes.Bitslice.Block Cfg.endian) := do
  pure (⟨(← Aes.Leak.not self.val)⟩ : (Aes.Bitslice.Block Cfg.endian))

/-- src/aes_bitslice.rs:285-288 `store_to`. -/
def store_to (self : (Aes.Bitslice.Block Cfg.endian)) (dst : List U8) : Aes.Leak.L (List U8) := do
  Aes.Leak.assert (decide (dst.length ≥ 16))
  let dst ← Aes.Leak.onTo dst 16 (fun s => do Aes.Leak.copyFromSlice s ((← Aes.Leak.emit .move (toNe Cfg.endian 16 self.val)).toList))
  pure dst

/-- src/aes_bitslice.rs:291-293 `zero`. -/
def zero : Aes.Leak.L (Aes.Bitslice.Block Cfg.endian) :=
  pure (⟨0#128⟩ : (Aes.Bitslice.Block Cfg.endian))

/-- src/aes_bitslice.rs:297-299 `is_zero`. -/
def is_zero (self : (Aes.Bitslice.Block Cfg.endian)) : Aes.Leak.L Bool :=
  Aes.Leak.eqw self.val 0#128

/-- src/aes_bitslice.rs:327-329 `mc`. -/
def mc (self : (Aes.Bitslice.Block Cfg.endian)) : Aes.Leak.L (Aes.Bitslice.Block Cfg.endian) := do
  pure (⟨(← mixcolumns self.val)⟩ : (Aes.Bitslice.Block Cfg.endian))

/-- src/aes_bitslice.rs:303-305 `enc`. -/
def enc (self : (Aes.Bitslice.Block Cfg.endian)) (round_key : (Aes.Bitslice.Block Cfg.endian)) : Aes.Leak.L (Aes.Bitslice.Block Cfg.endian) := do
  bitxor (← mc (⟨(← subbytes (← shiftrows (← Aes.Leak.emit .move (toNe Cfg.endian 16 self.val))))⟩ : (Aes.Bitslice.Block Cfg.endian))) round_key

/-- src/aes_bitslice.rs:333-335 `imc`. -/
def imc (self : (Aes.Bitslice.Block Cfg.endian)) : Aes.Leak.L (Aes.Bitslice.Block Cfg.endian) := do
  pure (⟨(← invmixcolumns self.val)⟩ : (Aes.Bitslice.Block Cfg.endian))

/-- src/aes_bitslice.rs:309-311 `dec`. -/
def dec (self : (Aes.Bitslice.Block Cfg.endian)) (round_key : (Aes.Bitslice.Block Cfg.endian)) : Aes.Leak.L (Aes.Bitslice.Block Cfg.endian) := do
  bitxor (← imc (⟨(← invsubbytes (← invshiftrows (← Aes.Leak.emit .move (toNe Cfg.endian 16 self.val))))⟩ : (Aes.Bitslice.Block Cfg.endian))) round_key

/-- src/aes_bitslice.rs:315-317 `enc_last`. -/
def enc_last (self : (Aes.Bitslice.Block Cfg.endian)) (round_key : (Aes.Bitslice.Block Cfg.endian)) : Aes.Leak.L (Aes.Bitslice.Block Cfg.endian) := do
  bitxor (⟨(← subbytes (← shiftrows (← Aes.Leak.emit .move (toNe Cfg.endian 16 self.val))))⟩ : (Aes.Bitslice.Block Cfg.endian)) round_key

/-- src/aes_bitslice.rs:321-323 `dec_last`. -/
def dec_last (self : (Aes.Bitslice.Block Cfg.endian)) (round_key : (Aes.Bitslice.Block Cfg.endian)) : Aes.Leak.L (Aes.Bitslice.Block Cfg.endian) := do
  bitxor (⟨(← invsubbytes (← invshiftrows (← Aes.Leak.emit .move (toNe Cfg.endian 16 self.val))))⟩ : (Aes.Bitslice.Block Cfg.endian)) round_key

/-- src/aes_bitslice.rs:340-356 `keygen_128`. -/
def keygen_128 (key : Vector U8 16) : Aes.Leak.L (Vector (Aes.Bitslice.Block Cfg.endian) 11) := do
  let expanded_keys : Vector (Aes.Bitslice.Block Cfg.endian) 11 := zeroed
  let columns : Vector U32 44 ← quiet (castView expanded_keys 44)
  let columns ← Aes.Leak.forEach (enumerate (chunksExact 4 key.toList)) (fun columns (i, chunk) => do
      let columns ← Aes.Leak.upd .data columns i (← Aes.Leak.emit .move (fromNe Cfg.endian 32 (← Aes.Leak.arrayTryFrom 4 chunk)))
      pure columns) columns
  let columns ← Aes.Leak.forEach (rangeStep 0 40 4) (fun columns i => do
      let columns ← Aes.Leak.upd .data columns (← quiet (Aes.Profile.uadd Cfg.profile i 4)) (← Aes.Leak.xor (← Aes.Leak.xor (← Aes.Leak.idx .data columns (← quiet (Aes.Profile.uadd Cfg.profile i 0))) (← Aes.Leak.rotr (← sub_word (← Aes.Leak.idx .data columns (← quiet (Aes.Profile.uadd Cfg.profile i 3)))) 8)) (← Aes.Leak.idx .RCON RustSrc.Bitslice.RCON (i / 4)))
      let columns ← Aes.Leak.upd .data columns (← quiet (Aes.Profile.uadd Cfg.profile i 5)) (← Aes.Leak.xor (← Aes.Leak.idx .data columns (← quiet (Aes.Profile.uadd Cfg.profile i 1))) (← Aes.Leak.idx .data columns (← quiet (Aes.Profile.uadd Cfg.profile i 4))))
      let columns ← Aes.Leak.upd .data columns (← quiet (Aes.Profile.uadd Cfg.profile i 6)) (← Aes.Leak.xor (← Aes.Leak.idx .data columns (← quiet (Aes.Profile.uadd Cfg.profile i 2))) (← Aes.Leak.idx .data columns (← quiet (Aes.Profile.uadd Cfg.profile i 5))))
      let columns ← Aes.Leak.upd .data columns (← quiet (Aes.Profile.uadd Cfg.profile i 7)) (← Aes.Leak.xor (← Aes.Leak.idx .data columns (← quiet (Aes.Profile.uadd Cfg.profile i 3))) (← Aes.Leak.idx .data columns (← quiet (Aes.Profile.uadd Cfg.profile i 6))))
      pure columns) columns
  let expanded_keys : Vector (Aes.Bitslice.Block Cfg.endian) 11 := castBack expanded_keys columns
  pure expanded_keys

/-- src/aes_bitslice.rs:358-381 `keygen_192`. -/
def keygen_192 (key : Vector U8 24) : Aes.Leak.L (Vector (Aes.Bitslice.Block Cfg.endian) 13) := do
  let expanded_keys : Vector (Aes.Bitslice.Block Cfg.endian) 13 := zeroed
  let columns : Vector U32 52 ← quiet (castView expanded_keys 52)
  let columns ← Aes.Leak.forEach (enumerate (chunksExact 4 key.toList)) (fun columns (i, chunk) => do
      let columns ← Aes.Leak.upd .data columns i (← Aes.Leak.emit .move (fromNe Cfg.endian 32 (← Aes.Leak.arrayTryFrom 4 chunk)))
      pure columns) columns
  let columns ← Aes.Leak.forEach (rangeStep 0 42 6) (fun columns i => do
      let columns ← Aes.Leak.upd .data columns (← quiet (Aes.Profile.uadd Cfg.profile i 6)) (← Aes.Leak.xor (← Aes.Leak.xor (← Aes.Leak.idx .data columns (← quiet (Aes.Profile.uadd Cfg.profile i 0))) (← Aes.Leak.rotr (← sub_word (← Aes.Leak.idx .data columns (← quiet (Aes.Profile.uadd Cfg.profile i 5)))) 8)) (← Aes.Leak.idx .RCON RustSrc.Bitslice.RCON (i / 6)))
      let columns ← Aes.Leak.upd .data columns (← quiet (Aes.Profile.uadd Cfg.profile i 7)) (← Aes.Leak.xor (← Aes.Leak.idx .data columns (← quiet (Aes.Profile.uadd Cfg.profile i 1))) (← Aes.Leak.idx .data columns (← quiet (Aes.Profile.uadd Cfg.profile i 6))))
      let columns ← Aes.Leak.upd .data columns (← quiet (Aes.Profile.uadd Cfg.profile i 8)) (← Aes.Leak.xor (← Aes.Leak.idx .data columns (← quiet (Aes.Profile.uadd Cfg.profile i 2))) (← Aes.Leak.idx .data columns (← quiet (Aes.Profile.uadd Cfg.profile i 7))))
      let columns ← Aes.Leak.upd .data columns (← quiet (Aes.Profile.uadd Cfg.profile i 9)) (← Aes.Leak.xor (← Aes.Leak.idx .data columns (← quiet (Aes.Profile.uadd Cfg.profile i 3))) (← Aes.Leak.idx .data columns (← quiet (Aes.Profile.uadd Cfg.profile i 8))))
      let columns ← Aes.Leak.upd .data columns (← quiet (Aes.Profile.uadd Cfg.profile i 10)) (← Aes.Leak.xor (← Aes.Leak.idx .data columns (← quiet (Aes.Profile.uadd Cfg.profile i 4))) (← Aes.Leak.idx .data columns (← quiet (Aes.Profile.uadd Cfg.profile i 9))))
      let columns ← Aes.Leak.upd .data columns (← quiet (Aes.Profile.uadd Cfg.profile i 11)) (← Aes.Leak.xor (← Aes.Leak.idx .data columns (← quiet (Aes.Profile.uadd Cfg.profile i 5))) (← Aes.Leak.idx .data columns (← quiet (Aes.Profile.uadd Cfg.profile i 10))))
      pure columns) columns
  let columns ← Aes.Leak.upd .data columns 48 (← Aes.Leak.xor (← Aes.Leak.xor (← Aes.Leak.idx .data columns 42) (← Aes.Leak.rotr (← sub_word (← Aes.Leak.idx .data columns 47)) 8)) (← Aes.Leak.idx .RCON RustSrc.Bitslice.RCON 7))
  let columns ← Aes.Leak.upd .data columns 49 (← Aes.Leak.xor (← Aes.Leak.idx .data columns 43) (← Aes.Leak.idx .data columns 48))
  let columns ← Aes.Leak.upd .data columns 50 (← Aes.Leak.xor (← Aes.Leak.idx .data columns 44) (← Aes.Leak.idx .data columns 49))
  let columns ← Aes.Leak.upd .data columns 51 (← Aes.Leak.xor (← Aes.Leak.idx .data columns 45) (← Aes.Leak.idx .data columns 50))
  let expanded_keys : Vector (Aes.Bitslice.Block Cfg.endian) 13 := castBack expanded_keys columns
  pure expanded_keys

/-- src/aes_bitslice.rs:383-408 `keygen_256`. -/
def keygen_256 (key : Vector U8 32) : Aes.Leak.L (Vector (Aes.Bitslice.Block Cfg.endian) 15) := do
  let expanded_keys : Vector (Aes.Bitslice.Block Cfg.endian) 15 := zeroed
  let columns : Vector U32 60 ← quiet (castView expanded_keys 60)
  let columns ← Aes.Leak.forEach (enumerate (chunksExact 4 key.toList)) (fun columns (i, chunk) => do
      let columns ← Aes.Leak.upd .data columns i (← Aes.Leak.emit .move (fromNe Cfg.endian 32 (← Aes.Leak.arrayTryFrom 4 chunk)))
      pure columns) columns
  let columns ← Aes.Leak.forEach (rangeStep 0 48 8) (fun columns i => do
      let columns ← Aes.Leak.upd .data columns (← quiet (Aes.Profile.uadd Cfg.profile i 8)) (← Aes.Leak.xor (← Aes.Leak.xor (← Aes.Leak.idx .data columns (← quiet (Aes.Profile.uadd Cfg.profile i 0))) (← Aes.Leak.rotr (← sub_word (← Aes.Leak.idx .data columns (← quiet (Aes.Profile.uadd Cfg.profile i 7)))) 8)) (← Aes.Leak.idx .RCON RustSrc.Bitslice.RCON (i / 8)))
      let columns ← Aes.Leak.upd .data columns (← quiet (Aes.Profile.uadd Cfg.profile i 9)) (← Aes.Leak.xor (← Aes.Leak.idx .data columns (← quiet (Aes.Profile.uadd Cfg.profile i 1))) (← Aes.Leak.idx .data columns (← quiet (Aes.Profile.uadd Cfg.profile i 8))))
      let columns ← Aes.Leak.upd .data columns (← quiet (Aes.Profile.uadd Cfg.profile i 10)) (← Aes.Leak.xor (← Aes.Leak.idx .data columns (← quiet (Aes.Profile.uadd Cfg.profile i 2))) (← Aes.Leak.idx .data columns (← quiet (Aes.Profile.uadd Cfg.profile i 9))))
      let columns ← Aes.Leak.upd .data columns (← quiet (Aes.Profile.uadd Cfg.profile i 11)) (← Aes.Leak.xor (← Aes.Leak.idx .data columns (← quiet (Aes.Profile.uadd Cfg.profile i 3))) (← Aes.Leak.idx .data columns (← quiet (Aes.Profile.uadd Cfg.profile i 10))))
      let columns ← Aes.Leak.upd .data columns (← quiet (Aes.Profile.uadd Cfg.profile i 12)) (← Aes.Leak.xor (← Aes.Leak.idx .data columns (← quiet (Aes.Profile.uadd Cfg.profile i 4))) (← sub_word (← Aes.Leak.idx .data columns (← quiet (Aes.Profile.uadd Cfg.profile i 11)))))
      let columns ← Aes.Leak.upd .data columns (← quiet (Aes.Profile.uadd Cfg.profile i 13)) (← Aes.Leak.xor (← Aes.Leak.idx .data columns (← quiet (Aes.Profile.uadd Cfg.profile i 5))) (← Aes.Leak.idx .data columns (← quiet (Aes.Profile.uadd Cfg.profile i 12))))
      let columns ← Aes.Leak.upd .data columns (← quiet (Aes.Profile.uadd Cfg.profile i 14)) (← Aes.Leak.xor (← Aes.Leak.idx .data columns (← quiet (Aes.Profile.uadd Cfg.profile i 6))) (← Aes.Leak.idx .data columns (← quiet (Aes.Profile.uadd Cfg.profile i 13))))
      let columns ← Aes.Leak.upd .data columns (← quiet (Aes.Profile.uadd Cfg.profile i 15)) (← Aes.Leak.xor (← Aes.Leak.idx .data columns (← quiet (Aes.Profile.uadd Cfg.profile i 7))) (← Aes.Leak.idx .data columns (← quiet (Aes.Profile.uadd Cfg.profile i 14))))
      pure columns) columns
  let columns ← Aes.Leak.upd .data columns 56 (← Aes.Leak.xor (← Aes.Leak.xor (← Aes.Leak.idx .data columns 48) (← Aes.Leak.rotr (← sub_word (← Aes.Leak.idx .data columns 55)) 8)) (← Aes.Leak.idx .RCON RustSrc.Bitslice.RCON 6))
  let columns ← Aes.Leak.upd .data columns 57 (← Aes.Leak.xor (← Aes.Leak.idx .data columns 49) (← Aes.Leak.idx .data columns 56))
  let columns ← Aes.Leak.upd .data columns 58 (← Aes.Leak.xor (← Aes.Leak.idx .data columns 50) (← Aes.Leak.idx .data columns 57))
  let columns ← Aes.Leak.upd .data columns 59 (← Aes.Leak.xor (← Aes.Leak.idx .data columns 51) (← Aes.Leak.idx .data columns 58))
  let expanded_keys : Vector (Aes.Bitslice.Block Cfg.endian) 15 := castBack expanded_keys columns
  pure expanded_keys

/-- What src/aes_bitslice.rs provides to the rest of the crate. -/
@[reducible] def block : Aes.Leak.LBlock (Aes.Bitslice.Block Cfg.endian) where
  new := new
  from_bytes := from_bytes
  store_to := store_to
  zero := zero
  is_zero := is_zero
  eq := eq
  bitand := bitand
  bitor := bitor
  bitxor := bitxor
  not := not
  enc := enc
  dec := dec
  enc_last := enc_last
  dec_last := dec_last
  pre := none
  mc := mc
  imc := imc
  keygen_128 := keygen_128
  keygen_192 := keygen_192
  keygen_256 := keygen_256

end RustSrc.Leak.Bitslice
