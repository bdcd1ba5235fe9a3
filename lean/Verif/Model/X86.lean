import Verif.Model.Lib
import Verif.Model.IsaX86
/-
Model of src/aes_x86.rs (AES-NI).
-/
namespace Aes.X86
open Rust IsaX86

/-- src/aes_x86.rs:7-10 `struct AesBlock(__m128i)`. -/
structure Block where
  val : M128i
deriving DecidableEq, Repr

/-- src/aes_x86.rs:66-69 `new`: `transmute([u8; 16])`. -/
def new (value : Vector U8 16) : M Block := .ok ⟨value⟩
/-- src/aes_x86.rs:21-26 `From<[u8; 16]>`. -/
def from_bytes (value : Vector U8 16) : M Block := do pure ⟨← loadu 16 value.toList⟩
/-- src/aes_x86.rs:28-35 `BitAnd`. -/
def bitand (self rhs : Block) : Block := ⟨and self.val rhs.val⟩
/-- src/aes_x86.rs:37-44 `BitOr`. -/
def bitor (self rhs : Block) : Block := ⟨or self.val rhs.val⟩
/-- src/aes_x86.rs:46-53 `BitXor`. -/
def bitxor (self rhs : Block) : Block := ⟨xor self.val rhs.val⟩
/-- src/aes_x86.rs:55-62 `Not`. -/
def not (self : Block) : Block := ⟨xor self.val set1_minus1⟩
/-- src/aes_x86.rs:72-75 `store_to`. -/
def store_to (self : Block) (dst : List U8) : M (List U8) := do
  assert (dst.length ≥ 16)
  storeu dst self.val
/-- src/aes_x86.rs:78-80 `zero`. -/
def zero : Block := ⟨setzero⟩
/-- src/aes_x86.rs:84-86 `is_zero`. -/
def is_zero (self : Block) : Bool := testz self.val self.val == 1
/-- src/aes_x86.rs:12-17 `PartialEq`. -/
def eq (self other : Block) : Bool := is_zero (bitxor self other)
/-- src/aes_x86.rs:90-92 `enc`. -/
def enc (self round_key : Block) : Block := ⟨aesenc self.val round_key.val⟩
/-- src/aes_x86.rs:96-98 `dec`. -/
def dec (self round_key : Block) : Block := ⟨aesdec self.val round_key.val⟩
/-- src/aes_x86.rs:102-104 `enc_last`. -/
def enc_last (self round_key : Block) : Block := ⟨aesenclast self.val round_key.val⟩
/-- src/aes_x86.rs:108-110 `dec_last`. -/
def dec_last (self round_key : Block) : Block := ⟨aesdeclast self.val round_key.val⟩
/-- src/aes_x86.rs:114-121 `mc`. -/
def mc (self : Block) : Block := ⟨aesenc (aesdeclast self.val setzero) setzero⟩
/-- src/aes_x86.rs:125-127 `imc`. -/
def imc (self : Block) : Block := ⟨aesimc self.val⟩

/-- src/aes_x86.rs:130-134 `mix`. -/
def mix (vector : M128i) : M128i :=
  let temp := xor vector (bslli 4 vector)
  xor temp (bslli 8 temp)

/-- src/aes_x86.rs:138-145 `keyexp_128`. -/
def keyexp_128 (RCON : U8) (prev_rkey : Block) : Block :=
  ⟨xor (mix prev_rkey.val) (shuffle_epi32 0xff (aeskeygenassist RCON prev_rkey.val))⟩

/-- src/aes_x86.rs:151-158 `fwd`, returning the new `(state1, state2)`. -/
def fwd (RCON : U8) (state1 state2 : Block) : Block × Block :=
  let state1 : Block := ⟨xor (mix state1.val) (shuffle_epi32 0x55 (aeskeygenassist RCON state2.val))⟩
  let state2 : Block := ⟨xor state2.val (bslli 4 state2.val)⟩
  let state2 : Block := ⟨xor state2.val (shuffle_epi32 0xff state1.val)⟩
  (state1, state2)

/-- src/aes_x86.rs:147-171 `keyexp_192`, returning the new state and the three round keys. -/
def keyexp_192 (RCON1 RCON2 : U8) (state : Block × Block) :
    (Block × Block) × (Block × Block × Block) :=
  let (state1, state2) := state
  let prev_state := state2.val
  let (state1, state2) := fwd RCON1 state1 state2
  let key1 := unpacklo_epi64 prev_state state1.val
  let key2 := alignr_epi8 8 state2.val state1.val
  let (state1, state2) := fwd RCON2 state1 state2
  ((state1, state2), (⟨key1⟩, ⟨key2⟩, state1))

/-- src/aes_x86.rs:173-180 `keyexp_256_1`. -/
def keyexp_256_1 (RCON : U8) (prev0 prev1 : Block) : Block :=
  ⟨xor (mix prev0.val) (shuffle_epi32 0xff (aeskeygenassist RCON prev1.val))⟩

/-- src/aes_x86.rs:182-189 `keyexp_256_2`. -/
def keyexp_256_2 (prev0 prev1 : Block) : Block :=
  ⟨xor (mix prev0.val) (shuffle_epi32 0xaa (aeskeygenassist 0 prev1.val))⟩

/-- src/aes_x86.rs:191-207 `keygen_128`. -/
def keygen_128 (key : Vector U8 16) : M (Vector Block 11) := do
  let key0 ← from_bytes key
  let key1 := keyexp_128 0x01 key0
  let key2 := keyexp_128 0x02 key1
  let key3 := keyexp_128 0x04 key2
  let key4 := keyexp_128 0x08 key3
  let key5 := keyexp_128 0x10 key4
  let key6 := keyexp_128 0x20 key5
  let key7 := keyexp_128 0x40 key6
  let key8 := keyexp_128 0x80 key7
  let key9 := keyexp_128 0x1b key8
  let key10 := keyexp_128 0x36 key9
  pure #v[key0, key1, key2, key3, key4, key5, key6, key7, key8, key9, key10]

/-- src/aes_x86.rs:209-225 `keygen_192` (`try_from` is src/lib.rs:172-179; `fill(0)` writes zeros). -/
def keygen_192 (key : Vector U8 24) : M (Vector Block 13) := do
  let key0 ← unwrap (← try_from_slice 16 from_bytes (← sliceTo key.toList 16))
  let key_block : List U8 := List.replicate 16 0
  let tail ← sliceFrom key.toList 16
  let key_block ← onTo key_block 8 fun s => copyFromSlice s tail
  let key_block ← onFrom key_block 8 fun s => pure (List.replicate s.length 0)
  let state := (key0, ← from_bytes (← arrayTryFrom 16 key_block))
  let (state, (key1, key2, key3)) := keyexp_192 0x01 0x02 state
  let (state, (key4, key5, key6)) := keyexp_192 0x04 0x08 state
  let (state, (key7, key8, key9)) := keyexp_192 0x10 0x20 state
  let (_, (key10, key11, key12)) := keyexp_192 0x40 0x80 state
  pure #v[key0, key1, key2, key3, key4, key5, key6, key7, key8, key9, key10, key11, key12]

/-- src/aes_x86.rs:227-249 `keygen_256`. -/
def keygen_256 (key : Vector U8 32) : M (Vector Block 15) := do
  let key0 ← unwrap (← try_from_slice 16 from_bytes (← sliceTo key.toList 16))
  let key1 ← unwrap (← try_from_slice 16 from_bytes (← sliceFrom key.toList 16))
  let key2 := keyexp_256_1 0x01 key0 key1
  let key3 := keyexp_256_2 key1 key2
  let key4 := keyexp_256_1 0x02 key2 key3
  let key5 := keyexp_256_2 key3 key4
  let key6 := keyexp_256_1 0x04 key4 key5
  let key7 := keyexp_256_2 key5 key6
  let key8 := keyexp_256_1 0x08 key6 key7
  let key9 := keyexp_256_2 key7 key8
  let key10 := keyexp_256_1 0x10 key8 key9
  let key11 := keyexp_256_2 key9 key10
  let key12 := keyexp_256_1 0x20 key10 key11
  let key13 := keyexp_256_2 key11 key12
  let key14 := keyexp_256_1 0x40 key12 key13
  pure #v[key0, key1, key2, key3, key4, key5, key6, key7, key8, key9, key10, key11, key12, key13, key14]

/-- The API of the module (no `pre_enc`/`pre_dec` in src/aes_x86.rs). -/
instance : AesBlock Block where
  new := new
  from_bytes := from_bytes
  store_to := store_to
  zero := zero
  is_zero := is_zero
  eq := eq
  bitand := bitand
  bitor := bitor
  bitxor := bitxor
  not := not
  enc := enc
  dec := dec
  enc_last := enc_last
  dec_last := dec_last
  pre := none
  mc := mc
  imc := imc
  keygen_128 := keygen_128
  keygen_192 := keygen_192
  keygen_256 := keygen_256

end Aes.X86
