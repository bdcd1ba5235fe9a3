import Verif.Model.Columns
/-
Model of src/aes_bitslice.rs (software implementation selected by the `constant-time` feature).
`e` is the `target_endian`: the code uses `from_ne_bytes`/`to_ne_bytes` and one `cfg!(target_endian)`.
-/
namespace Aes.Bitslice
open Rust

/-- src/aes_bitslice.rs:5-7 `rep` (`from_ne_bytes` of sixteen equal bytes: the same in either endianness). -/
def rep (x : U8) : U128 := fromLe 128 (Vector.replicate 16 x)

/-- src/aes_bitslice.rs:10-12 `ror1`. -/
def ror1 (x : U128) : U128 := ((x &&& rep 0xfe) >>> 1) ||| ((x &&& rep 0x01) <<< 7)

/-- src/aes_bitslice.rs:15-17 `swap2`. -/
def swap2 (x : U128) : U128 := ((x &&& rep 0xcc) >>> 2) ||| ((x &&& rep 0x33) <<< 2)

/-- src/aes_bitslice.rs:20-23 `step_a`. -/
def step_a (a b mask : U128) : U128 :=
  let x := a &&& b
  x ^^^ ((x &&& mask) >>> 1) ^^^ ((((a <<< 1) &&& b) ^^^ ((b <<< 1) &&& a)) &&& mask)

/-- src/aes_bitslice.rs:26-29 `step_b`. -/
def step_b (a mask : U128) : U128 :=
  let x := a &&& mask
  (x ||| (x >>> 1)) ^^^ ((a <<< 1) &&& mask)

/-- src/aes_bitslice.rs:37-96 `subbytes`. -/
def subbytes (x : U128) : U128 :=
  let y := ror1 x
  let x := (x &&& rep 0xdd) ^^^ (y &&& rep 0x57)
  let y := ror1 y
  let x := x ^^^ (y &&& rep 0x1c)
  let y := ror1 y
  let x := x ^^^ (y &&& rep 0x4a)
  let y := ror1 y
  let x := x ^^^ (y &&& rep 0x42)
  let y := ror1 y
  let x := x ^^^ (y &&& rep 0x64)
  let y := ror1 y
  let x := x ^^^ (y &&& rep 0xe0)

  let a1 := x ^^^ ((x &&& rep 0xf0) >>> 4)
  let a2 := swap2 x
  let a3 := step_a x a1 (rep 0xaa)
  let a4 := step_a a1 a2 (rep 0xaa)
  let a5 := (a3 &&& rep 0xcc) >>> 2
  let a3 := a3 ^^^ (((a4 <<< 2) ^^^ a4) &&& rep 0xcc)
  let a4 := step_b a5 (rep 0x22)
  let a3 := a3 ^^^ a4
  let a5 := step_b a3 (rep 0xa0)
  let a4 := a5 &&& rep 0xc0
  let a6 := a4 >>> 2
  let a4 := a4 ^^^ ((a5 <<< 2) &&& rep 0xc0)
  let a5 := step_b a6 (rep 0x20)
  let a4 := a4 ||| a5
  let a3 := (a3 ^^^ (a4 >>> 4)) &&& rep 0x0f
  let a2 := a3 ^^^ ((a3 &&& rep 0x0c) >>> 2)
  let a4 := step_a a2 a3 (rep 0x0a)
  let a5 := step_b a4 (rep 0x08)
  let a4 := (a4 ^^^ (a5 >>> 2)) &&& rep 0x03
  let a4 := a4 ^^^ ((a4 &&& rep 0x02) >>> 1)
  let a4 := a4 ||| (a4 <<< 2)
  let a3 := step_a a2 a4 (rep 0x0a)
  let a3 := a3 ||| (a3 <<< 4)
  let a2 := swap2 a1
  let x := step_a a1 a3 (rep 0xaa)
  let a4 := step_a a2 a3 (rep 0xaa)
  let a5 := (x &&& rep 0xcc) >>> 2
  let x := x ^^^ (((a4 <<< 2) ^^^ a4) &&& rep 0xcc)
  let a4 := step_b a5 (rep 0x22)
  let x := x ^^^ a4

  let y := ror1 x
  let x := (x &&& rep 0x39) ^^^ (y &&& rep 0x3f)
  let y := ((y &&& rep 0xfc) >>> 2) ||| ((y &&& rep 0x03) <<< 6)
  let x := x ^^^ (y &&& rep 0x97)
  let y := ror1 y
  let x := x ^^^ (y &&& rep 0x9b)
  let y := ror1 y
  let x := x ^^^ (y &&& rep 0x3c)
  let y := ror1 y
  let x := x ^^^ (y &&& rep 0xdd)
  let y := ror1 y
  let x := x ^^^ (y &&& rep 0x72)

  x ^^^ rep 0x63

/-- src/aes_bitslice.rs:98-161 `invsubbytes`. -/
def invsubbytes (x : U128) : U128 :=
  let x := x ^^^ rep 0x63
  let y := ror1 x
  let x := (x &&& rep 0xfd) ^^^ (y &&& rep 0x5e)
  let y := ror1 y
  let x := x ^^^ (y &&& rep 0xf3)
  let y := ror1 y
  let x := x ^^^ (y &&& rep 0xf5)
  let y := ror1 y
  let x := x ^^^ (y &&& rep 0x78)
  let y := ror1 y
  let x := x ^^^ (y &&& rep 0x77)
  let y := ror1 y
  let x := x ^^^ (y &&& rep 0x15)
  let y := ror1 y
  let x := x ^^^ (y &&& rep 0xa5)

  let a1 := x ^^^ ((x &&& rep 0xf0) >>> 4)
  let a2 := swap2 x
  let a3 := step_a x a1 (rep 0xaa)
  let a4 := step_a a1 a2 (rep 0xaa)
  let a5 := (a3 &&& rep 0xcc) >>> 2
  let a3 := a3 ^^^ (((a4 <<< 2) ^^^ a4) &&& rep 0xcc)
  let a4 := step_b a5 (rep 0x22)
  let a3 := a3 ^^^ a4
  let a5 := step_b a3 (rep 0xa0)
  let a4 := a5 &&& rep 0xc0
  let a6 := a4 >>> 2
  let a4 := a4 ^^^ ((a5 <<< 2) &&& rep 0xc0)
  let a5 := step_b a6 (rep 0x20)
  let a4 := a4 ||| a5
  let a3 := (a3 ^^^ (a4 >>> 4)) &&& rep 0x0f
  let a2 := a3 ^^^ ((a3 &&& rep 0x0c) >>> 2)
  let a4 := step_a a2 a3 (rep 0x0a)
  let a5 := step_b a4 (rep 0x08)
  let a4 := (a4 ^^^ (a5 >>> 2)) &&& rep 0x03
  let a4 := a4 ^^^ ((a4 &&& rep 0x02) >>> 1)
  let a4 := a4 ||| (a4 <<< 2)
  let a3 := step_a a2 a4 (rep 0x0a)
  let a3 := a3 ||| (a3 <<< 4)
  let a2 := swap2 a1
  let x := step_a a1 a3 (rep 0xaa)
  let a4 := step_a a2 a3 (rep 0xaa)
  let a5 := (x &&& rep 0xcc) >>> 2
  let x := x ^^^ (((a4 <<< 2) ^^^ a4) &&& rep 0xcc)
  let a4 := step_b a5 (rep 0x22)
  let x := x ^^^ a4

  let y := ror1 x
  let x := (x &&& rep 0xb5) ^^^ (y &&& rep 0x40)
  let y := ror1 y
  let x := x ^^^ (y &&& rep 0x80)
  let y := ror1 y
  let x := x ^^^ (y &&& rep 0x16)
  let y := ror1 y
  let x := x ^^^ (y &&& rep 0xeb)
  let y := ror1 y
  let x := x ^^^ (y &&& rep 0x97)
  let y := ror1 y
  let x := x ^^^ (y &&& rep 0xfb)
  let y := ror1 y

  x ^^^ (y &&& rep 0x7d)

/-- src/aes_bitslice.rs:32-35 `sub_word`: `subbytes(x as u128) as u32`. -/
def sub_word (x : U32) : U32 := (subbytes (x.setWidth 128)).setWidth 32

/-- src/aes_bitslice.rs:163-168 `shiftrows`. -/
def shiftrows (e : Endian) (state : Vector U8 16) : U128 :=
  fromNe e 128 #v[
    state[0], state[5], state[10], state[15], state[4], state[9], state[14], state[3],
    state[8], state[13], state[2], state[7], state[12], state[1], state[6], state[11]]

/-- src/aes_bitslice.rs:170-175 `invshiftrows`. -/
def invshiftrows (e : Endian) (state : Vector U8 16) : U128 :=
  fromNe e 128 #v[
    state[0], state[13], state[10], state[7], state[4], state[1], state[14], state[11],
    state[8], state[5], state[2], state[15], state[12], state[9], state[6], state[3]]

/-- src/aes_bitslice.rs:178-183 `xtime` (`wrapping_sub`). -/
def xtime (a : U128) : U128 :=
  let b := a &&& rep 0x80
  let a := a ^^^ b
  let b := (b - (b >>> 7)) &&& rep 0x1b
  b ^^^ (a <<< 1)

/-- src/aes_bitslice.rs:186-189 `swap16`. -/
def swap16 (x : U128) : U128 :=
  ((x &&& 0xffff0000ffff0000ffff0000ffff0000#128) >>> 16)
    ||| ((x &&& 0x0000ffff0000ffff0000ffff0000ffff#128) <<< 16)

/-- src/aes_bitslice.rs:192-195 `swap8`. -/
def swap8 (x : U128) : U128 :=
  ((x &&& 0xff00ff00ff00ff00ff00ff00ff00ff00#128) >>> 8)
    ||| ((x &&& 0x00ff00ff00ff00ff00ff00ff00ff00ff#128) <<< 8)

/-- src/aes_bitslice.rs:198-206 `ror8_32`, with its `cfg!(target_endian = "big")`. -/
def ror8_32 (e : Endian) (x : U128) : U128 :=
  match e with
  | .big =>
    ((x &&& 0x00ffffff00ffffff00ffffff00ffffff#128) <<< 8)
      ||| ((x &&& 0xff000000ff000000ff000000ff000000#128) >>> 24)
  | .little =>
    ((x &&& 0xffffff00ffffff00ffffff00ffffff00#128) >>> 8)
      ^^^ ((x &&& 0x000000ff000000ff000000ff000000ff#128) <<< 24)

/-- src/aes_bitslice.rs:208-214 `mixcolumns`. -/
def mixcolumns (e : Endian) (state : U128) : U128 :=
  let s := state ^^^ swap16 state
  let s := s ^^^ swap8 s ^^^ state
  let t := xtime state
  s ^^^ t ^^^ ror8_32 e t

/-- src/aes_bitslice.rs:216-228 `invmixcolumns`. -/
def invmixcolumns (e : Endian) (state : U128) : U128 :=
  let s := state ^^^ swap16 state
  let s := s ^^^ swap8 s ^^^ state
  let t := xtime state
  let s := s ^^^ t ^^^ ror8_32 e t
  let t := xtime t
  let t := t ^^^ swap16 t
  let s := s ^^^ t
  let t := xtime t
  s ^^^ t ^^^ swap8 t

/-- src/aes_bitslice.rs:230-233 `struct AesBlock(u128)`, derived `PartialEq`/`Eq`; indexed by the
target's endianness. -/
structure Block (e : Endian) where
  val : U128
deriving DecidableEq, Repr

section
variable {e : Endian}

/-- src/aes_bitslice.rs:280-282 `new`. -/
def new (value : Vector U8 16) : M (Block e) := .ok ⟨fromNe e 128 value⟩
/-- src/aes_bitslice.rs:235-240 `From<[u8; 16]>`. -/
def from_bytes (value : Vector U8 16) : M (Block e) := new value
/-- src/aes_bitslice.rs:242-249 `BitAnd`. -/
def bitand (self rhs : Block e) : Block e := ⟨self.val &&& rhs.val⟩
/-- src/aes_bitslice.rs:251-258 `BitOr`. -/
def bitor (self rhs : Block e) : Block e := ⟨self.val ||| rhs.val⟩
/-- src/aes_bitslice.rs:260-267 `BitXor`. -/
def bitxor (self rhs : Block e) : Block e := ⟨self.val ^^^ rhs.val⟩
/-- src/aes_bitslice.rs:269-276 `Not`. -/
def not (self : Block e) : Block e := ⟨~~~self.val⟩

/-- src/aes_bitslice.rs:285-288 `store_to`: `dst[..16].copy_from_slice(&self.0.to_ne_bytes())`. -/
def store_to (self : Block e) (dst : List U8) : M (List U8) := do
  assert (dst.length ≥ 16)
  onTo dst 16 fun s => copyFromSlice s (toNe e 16 self.val).toList

/-- src/aes_bitslice.rs:291-293 `zero`. -/
def zero : Block e := ⟨0⟩
/-- src/aes_bitslice.rs:297-299 `is_zero`. -/
def is_zero (self : Block e) : Bool := self.val == 0

/-- src/aes_bitslice.rs:327-329 `mc`. -/
def mc (self : Block e) : Block e := ⟨mixcolumns e self.val⟩
/-- src/aes_bitslice.rs:333-335 `imc`. -/
def imc (self : Block e) : Block e := ⟨invmixcolumns e self.val⟩

/-- src/aes_bitslice.rs:303-305 `enc`. -/
def enc (self round_key : Block e) : Block e :=
  bitxor (mc ⟨subbytes (shiftrows e (toNe e 16 self.val))⟩) round_key
/-- src/aes_bitslice.rs:309-311 `dec`. -/
def dec (self round_key : Block e) : Block e :=
  bitxor (imc ⟨invsubbytes (invshiftrows e (toNe e 16 self.val))⟩) round_key
/-- src/aes_bitslice.rs:315-317 `enc_last`. -/
def enc_last (self round_key : Block e) : Block e :=
  bitxor ⟨subbytes (shiftrows e (toNe e 16 self.val))⟩ round_key
/-- src/aes_bitslice.rs:321-323 `dec_last`. -/
def dec_last (self round_key : Block e) : Block e :=
  bitxor ⟨invsubbytes (invshiftrows e (toNe e 16 self.val))⟩ round_key

end

/-- src/aes_bitslice.rs:349 (367, 375, 392, 402): first word of a group,
`old ^ sub_word(prev).rotate_right(8) ^ rcon`. -/
def first (old prev rcon : U32) : U32 := old ^^^ (sub_word prev).rotateRight 8 ^^^ rcon
/-- src/aes_bitslice.rs:396: fifth word of a group of 8, `old ^ sub_word(prev)`. -/
def fifth (old prev : U32) : U32 := old ^^^ sub_word prev

/-- The `[AesBlock; N]` whose memory the columns are (src/aes_bitslice.rs:341-342,355 etc.; an `AesBlock` is a
`u128` in native byte order). -/
def as_blocks (e : Endian) {N : Nat} (columns : Vector U32 (4 * N)) : Vector (Block e) N :=
  (Columns.block_bytes e columns).map fun b => ⟨fromNe e 128 b⟩

/-- src/aes_bitslice.rs:340-356 `keygen_128`. -/
def keygen_128 (e : Endian) (key : Vector U8 16) : M (Vector (Block e) 11) := do
  pure (as_blocks e (N := 11) (← Columns.columns_128 first e key))
/-- src/aes_bitslice.rs:358-381 `keygen_192`. -/
def keygen_192 (e : Endian) (key : Vector U8 24) : M (Vector (Block e) 13) := do
  pure (as_blocks e (N := 13) (← Columns.columns_192 first e key))
/-- src/aes_bitslice.rs:383-408 `keygen_256`. -/
def keygen_256 (e : Endian) (key : Vector U8 32) : M (Vector (Block e) 15) := do
  pure (as_blocks e (N := 15) (← Columns.columns_256 first fifth first e key))

/-- The API of the module (no `pre_enc`/`pre_dec` in src/aes_bitslice.rs). -/
instance (e : Endian) : AesBlock (Block e) where
  new := new
  from_bytes := from_bytes
  store_to := store_to
  zero := zero
  is_zero := is_zero
  eq := fun a b => decide (a = b)
  bitand := bitand
  bitor := bitor
  bitxor := bitxor
  not := not
  enc := enc
  dec := dec
  enc_last := enc_last
  dec_last := dec_last
  pre := none
  mc := mc
  imc := imc
  keygen_128 := keygen_128 e
  keygen_192 := keygen_192 e
  keygen_256 := keygen_256 e

end Aes.Bitslice
