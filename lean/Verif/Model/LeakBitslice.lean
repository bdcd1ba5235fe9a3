import Verif.Model.LeakLib
/-
The leakage version of src/aes_bitslice.rs (see Verif/Model/Bitslice.lean and Verif/Model/Leak.lean). `rep(..)` of a literal is
a constant. The text of the word-level functions was produced from Verif/Model/Bitslice.lean by writing every operator as
the corresponding operation of `L`.
-/
namespace Aes.Leak.Bitslice
open Rust
open Aes.Bitslice (Block rep)

/-- src/aes_bitslice.rs:10-12 `ror1`. -/
def ror1 (x : U128) : L U128 := do
  or (← shr (← and x (rep 0xfe)) 1) (← shl (← and x (rep 0x01)) 7)

/-- src/aes_bitslice.rs:15-17 `swap2`. -/
def swap2 (x : U128) : L U128 := do
  or (← shr (← and x (rep 0xcc)) 2) (← shl (← and x (rep 0x33)) 2)

/-- src/aes_bitslice.rs:20-23 `step_a`. -/
def step_a (a b mask : U128) : L U128 := do
  let x ← and a b
  xor (← xor x (← shr (← and x mask) 1)) (← and (← xor (← and (← shl a 1) b) (← and (← shl b 1) a)) mask)

/-- src/aes_bitslice.rs:26-29 `step_b`. -/
def step_b (a mask : U128) : L U128 := do
  let x ← and a mask
  xor (← or x (← shr x 1)) (← and (← shl a 1) mask)

/-- src/aes_bitslice.rs:37-96 `subbytes`. -/
def subbytes (x : U128) : L U128 := do
  let y ← ror1 x
  let x ← xor (← and x (rep 0xdd)) (← and y (rep 0x57))
  let y ← ror1 y
  let x ← xor x (← and y (rep 0x1c))
  let y ← ror1 y
  let x ← xor x (← and y (rep 0x4a))
  let y ← ror1 y
  let x ← xor x (← and y (rep 0x42))
  let y ← ror1 y
  let x ← xor x (← and y (rep 0x64))
  let y ← ror1 y
  let x ← xor x (← and y (rep 0xe0))
  let a1 ← xor x (← shr (← and x (rep 0xf0)) 4)
  let a2 ← swap2 x
  let a3 ← step_a x a1 (rep 0xaa)
  let a4 ← step_a a1 a2 (rep 0xaa)
  let a5 ← shr (← and a3 (rep 0xcc)) 2
  let a3 ← xor a3 (← and (← xor (← shl a4 2) a4) (rep 0xcc))
  let a4 ← step_b a5 (rep 0x22)
  let a3 ← xor a3 a4
  let a5 ← step_b a3 (rep 0xa0)
  let a4 ← and a5 (rep 0xc0)
  let a6 ← shr a4 2
  let a4 ← xor a4 (← and (← shl a5 2) (rep 0xc0))
  let a5 ← step_b a6 (rep 0x20)
  let a4 ← or a4 a5
  let a3 ← and (← xor a3 (← shr a4 4)) (rep 0x0f)
  let a2 ← xor a3 (← shr (← and a3 (rep 0x0c)) 2)
  let a4 ← step_a a2 a3 (rep 0x0a)
  let a5 ← step_b a4 (rep 0x08)
  let a4 ← and (← xor a4 (← shr a5 2)) (rep 0x03)
  let a4 ← xor a4 (← shr (← and a4 (rep 0x02)) 1)
  let a4 ← or a4 (← shl a4 2)
  let a3 ← step_a a2 a4 (rep 0x0a)
  let a3 ← or a3 (← shl a3 4)
  let a2 ← swap2 a1
  let x ← step_a a1 a3 (rep 0xaa)
  let a4 ← step_a a2 a3 (rep 0xaa)
  let a5 ← shr (← and x (rep 0xcc)) 2
  let x ← xor x (← and (← xor (← shl a4 2) a4) (rep 0xcc))
  let a4 ← step_b a5 (rep 0x22)
  let x ← xor x a4
  let y ← ror1 x
  let x ← xor (← and x (rep 0x39)) (← and y (rep 0x3f))
  let y ← or (← shr (← and y (rep 0xfc)) 2) (← shl (← and y (rep 0x03)) 6)
  let x ← xor x (← and y (rep 0x97))
  let y ← ror1 y
  let x ← xor x (← and y (rep 0x9b))
  let y ← ror1 y
  let x ← xor x (← and y (rep 0x3c))
  let y ← ror1 y
  let x ← xor x (← and y (rep 0xdd))
  let y ← ror1 y
  let x ← xor x (← and y (rep 0x72))
  xor x (rep 0x63)

/-- src/aes_bitslice.rs:98-161 `invsubbytes`. -/
def invsubbytes (x : U128) : L U128 := do
  let x ← xor x (rep 0x63)
  let y ← ror1 x
  let x ← xor (← and x (rep 0xfd)) (← and y (rep 0x5e))
  let y ← ror1 y
  let x ← xor x (← and y (rep 0xf3))
  let y ← ror1 y
  let x ← xor x (← and y (rep 0xf5))
  let y ← ror1 y
  let x ← xor x (← and y (rep 0x78))
  let y ← ror1 y
  let x ← xor x (← and y (rep 0x77))
  let y ← ror1 y
  let x ← xor x (← and y (rep 0x15))
  let y ← ror1 y
  let x ← xor x (← and y (rep 0xa5))
  let a1 ← xor x (← shr (← and x (rep 0xf0)) 4)
  let a2 ← swap2 x
  let a3 ← step_a x a1 (rep 0xaa)
  let a4 ← step_a a1 a2 (rep 0xaa)
  let a5 ← shr (← and a3 (rep 0xcc)) 2
  let a3 ← xor a3 (← and (← xor (← shl a4 2) a4) (rep 0xcc))
  let a4 ← step_b a5 (rep 0x22)
  let a3 ← xor a3 a4
  let a5 ← step_b a3 (rep 0xa0)
  let a4 ← and a5 (rep 0xc0)
  let a6 ← shr a4 2
  let a4 ← xor a4 (← and (← shl a5 2) (rep 0xc0))
  let a5 ← step_b a6 (rep 0x20)
  let a4 ← or a4 a5
  let a3 ← and (← xor a3 (← shr a4 4)) (rep 0x0f)
  let a2 ← xor a3 (← shr (← and a3 (rep 0x0c)) 2)
  let a4 ← step_a a2 a3 (rep 0x0a)
  let a5 ← step_b a4 (rep 0x08)
  let a4 ← and (← xor a4 (← shr a5 2)) (rep 0x03)
  let a4 ← xor a4 (← shr (← and a4 (rep 0x02)) 1)
  let a4 ← or a4 (← shl a4 2)
  let a3 ← step_a a2 a4 (rep 0x0a)
  let a3 ← or a3 (← shl a3 4)
  let a2 ← swap2 a1
  let x ← step_a a1 a3 (rep 0xaa)
  let a4 ← step_a a2 a3 (rep 0xaa)
  let a5 ← shr (← and x (rep 0xcc)) 2
  let x ← xor x (← and (← xor (← shl a4 2) a4) (rep 0xcc))
  let a4 ← step_b a5 (rep 0x22)
  let x ← xor x a4
  let y ← ror1 x
  let x ← xor (← and x (rep 0xb5)) (← and y (rep 0x40))
  let y ← ror1 y
  let x ← xor x (← and y (rep 0x80))
  let y ← ror1 y
  let x ← xor x (← and y (rep 0x16))
  let y ← ror1 y
  let x ← xor x (← and y (rep 0xeb))
  let y ← ror1 y
  let x ← xor x (← and y (rep 0x97))
  let y ← ror1 y
  let x ← xor x (← and y (rep 0xfb))
  let y ← ror1 y
  xor x (← and y (rep 0x7d))

/-- src/aes_bitslice.rs:178-183 `xtime` (`wrapping_sub`). -/
def xtime (a : U128) : L U128 := do
  let b ← and a (rep 0x80)
  let a ← xor a b
  let b ← and (← sub b (← shr b 7)) (rep 0x1b)
  xor b (← shl a 1)

/-- src/aes_bitslice.rs:186-189 `swap16`. -/
def swap16 (x : U128) : L U128 := do
  or (← shr (← and x 0xffff0000ffff0000ffff0000ffff0000#128) 16) (← shl (← and x 0x0000ffff0000ffff0000ffff0000ffff#128) 16)

/-- src/aes_bitslice.rs:192-195 `swap8`. -/
def swap8 (x : U128) : L U128 := do
  or (← shr (← and x 0xff00ff00ff00ff00ff00ff00ff00ff00#128) 8) (← shl (← and x 0x00ff00ff00ff00ff00ff00ff00ff00ff#128) 8)

/-- src/aes_bitslice.rs:198-206 `ror8_32`. -/
def ror8_32 (e : Endian) (x : U128) : L U128 :=
  match e with
  | .big => do
    or (← shl (← and x 0x00ffffff00ffffff00ffffff00ffffff#128) 8)
      (← shr (← and x 0xff000000ff000000ff000000ff000000#128) 24)
  | .little => do
    xor (← shr (← and x 0xffffff00ffffff00ffffff00ffffff00#128) 8)
      (← shl (← and x 0x000000ff000000ff000000ff000000ff#128) 24)

/-- src/aes_bitslice.rs:208-214 `mixcolumns`. -/
def mixcolumns (e : Endian) (state : U128) : L U128 := do
  let s ← xor state (← swap16 state)
  let s ← xor (← xor s (← swap8 s)) state
  let t ← xtime state
  xor (← xor s t) (← ror8_32 e t)

/-- src/aes_bitslice.rs:216-228 `invmixcolumns`. -/
def invmixcolumns (e : Endian) (state : U128) : L U128 := do
  let s ← xor state (← swap16 state)
  let s ← xor (← xor s (← swap8 s)) state
  let t ← xtime state
  let s ← xor (← xor s t) (← ror8_32 e t)
  let t ← xtime t
  let t ← xor t (← swap16 t)
  let s ← xor s t
  let t ← xtime t
  xor (← xor s t) (← swap8 t)

/-- src/aes_bitslice.rs:32-35 `sub_word`. -/
def sub_word (x : U32) : L U32 := do cast 32 (← subbytes (← cast 128 x))

/-- Sixteen bytes picked from an array at constant positions. -/
def pick (state : Vector U8 16) : List Nat → L (List U8)
  | [] => pure []
  | i :: is => do
    let b ← idx .data state i
    pure (b :: (← pick state is))

/-- src/aes_bitslice.rs:163-168 `shiftrows`. -/
def shiftrows (e : Endian) (state : Vector U8 16) : L U128 := do
  let s ← pick state [0, 5, 10, 15, 4, 9, 14, 3, 8, 13, 2, 7, 12, 1, 6, 11]
  emit .move (fromNe e 128 (n := 16) (Vector.ofFn fun i => s.getD i.val 0))

/-- src/aes_bitslice.rs:170-175 `invshiftrows`. -/
def invshiftrows (e : Endian) (state : Vector U8 16) : L U128 := do
  let s ← pick state [0, 13, 10, 7, 4, 1, 14, 11, 8, 5, 2, 15, 12, 9, 6, 3]
  emit .move (fromNe e 128 (n := 16) (Vector.ofFn fun i => s.getD i.val 0))

section
variable {e : Endian}

/-- src/aes_bitslice.rs:280-282 `new`. -/
def new (value : Vector U8 16) : L (Block e) := do pure ⟨← emit .move (fromNe e 128 value)⟩
/-- src/aes_bitslice.rs:235-240 `From<[u8; 16]>`. -/
def from_bytes (value : Vector U8 16) : L (Block e) := new value
/-- src/aes_bitslice.rs:242-249 `BitAnd`. -/
def bitand (self rhs : Block e) : L (Block e) := do pure ⟨← and self.val rhs.val⟩
/-- src/aes_bitslice.rs:251-258 `BitOr`. -/
def bitor (self rhs : Block e) : L (Block e) := do pure ⟨← or self.val rhs.val⟩
/-- src/aes_bitslice.rs:260-267 `BitXor`. -/
def bitxor (self rhs : Block e) : L (Block e) := do pure ⟨← xor self.val rhs.val⟩
/-- src/aes_bitslice.rs:269-276 `Not`. -/
def not (self : Block e) : L (Block e) := do pure ⟨← Leak.not self.val⟩
/-- src/aes_bitslice.rs:285-288 `store_to`. -/
def store_to (self : Block e) (dst : List U8) : L (List U8) := do
  assert (dst.length ≥ 16)
  onTo dst 16 fun s => do copyFromSlice s (← emit .move (toNe e 16 self.val)).toList
/-- src/aes_bitslice.rs:291-293 `zero`. -/
def zero : L (Block e) := pure ⟨0⟩
/-- src/aes_bitslice.rs:297-299 `is_zero`. -/
def is_zero (self : Block e) : L Bool := eqw self.val 0
/-- src/aes_bitslice.rs:230 derived `PartialEq`: one comparison of `u128`s. -/
def eq (self other : Block e) : L Bool := eqw self.val other.val
/-- src/aes_bitslice.rs:327-329 `mc`. -/
def mc (self : Block e) : L (Block e) := do pure ⟨← mixcolumns e self.val⟩
/-- src/aes_bitslice.rs:333-335 `imc`. -/
def imc (self : Block e) : L (Block e) := do pure ⟨← invmixcolumns e self.val⟩
/-- src/aes_bitslice.rs:303-305 `enc`. -/
def enc (self round_key : Block e) : L (Block e) := do
  bitxor (← mc ⟨← subbytes (← shiftrows e (← emit .move (toNe e 16 self.val)))⟩) round_key
/-- src/aes_bitslice.rs:309-311 `dec`. -/
def dec (self round_key : Block e) : L (Block e) := do
  bitxor (← imc ⟨← invsubbytes (← invshiftrows e (← emit .move (toNe e 16 self.val)))⟩) round_key
/-- src/aes_bitslice.rs:315-317 `enc_last`. -/
def enc_last (self round_key : Block e) : L (Block e) := do
  bitxor ⟨← subbytes (← shiftrows e (← emit .move (toNe e 16 self.val)))⟩ round_key
/-- src/aes_bitslice.rs:321-323 `dec_last`. -/
def dec_last (self round_key : Block e) : L (Block e) := do
  bitxor ⟨← invsubbytes (← invshiftrows e (← emit .move (toNe e 16 self.val)))⟩ round_key

end

/-- src/aes_bitslice.rs:349 (367, 375, 392, 402). -/
def first {n : Nat} (columns : Vector U32 n) (i j r : Nat) : L U32 := do
  xor (← xor (← idx .data columns i) (← rotr (← sub_word (← idx .data columns j)) 8)) (← idx .RCON Aes.Columns.RCON r)
/-- src/aes_bitslice.rs:396. -/
def fifth {n : Nat} (columns : Vector U32 n) (i j : Nat) : L U32 := do xor (← idx .data columns i) (← sub_word (← idx .data columns j))

/-- src/aes_bitslice.rs:340-356 `keygen_128`. -/
def keygen_128 (e : Endian) (key : Vector U8 16) : L (Vector (Block e) 11) := do
  pure (Aes.Bitslice.as_blocks e (N := 11) (← Columns.columns_128 first e key))
/-- src/aes_bitslice.rs:358-381 `keygen_192`. -/
def keygen_192 (e : Endian) (key : Vector U8 24) : L (Vector (Block e) 13) := do
  pure (Aes.Bitslice.as_blocks e (N := 13) (← Columns.columns_192 first e key))
/-- src/aes_bitslice.rs:383-408 `keygen_256`. -/
def keygen_256 (e : Endian) (key : Vector U8 32) : L (Vector (Block e) 15) := do
  pure (Aes.Bitslice.as_blocks e (N := 15) (← Columns.columns_256 first fifth first e key))

/-- The API of the module. -/
instance (e : Endian) : LBlock (Block e) where
  new := new
  from_bytes := from_bytes
  store_to := store_to
  zero := zero
  is_zero := is_zero
  eq := eq
  bitand := bitand
  bitor := bitor
  bitxor := bitxor
  not := not
  enc := enc
  dec := dec
  enc_last := enc_last
  dec_last := dec_last
  pre := none
  mc := mc
  imc := imc
  keygen_128 := keygen_128 e
  keygen_192 := keygen_192 e
  keygen_256 := keygen_256 e

end Aes.Leak.Bitslice
