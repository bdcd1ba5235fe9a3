import Verif.Model.LeakLib
/-
The leakage version of src/aes_table_based.rs (see Verif/Model/Table.lean and Verif/Model/Leak.lean). The text was produced
from Verif/Model/Table.lean by writing every operator as the corresponding operation of `L`.
-/
namespace Aes.Leak.Table
open Rust
open Aes.Table (Block)

/-- src/aes_table_based.rs:10-15 `load_u32_be`. -/
def load_u32_be (slice : List U8) (offset : Nat) : L U32 := do
  or (← or (← or (← shl (← cast 32 (← sidx slice (offset + 0))) 24) (← shl (← cast 32 (← sidx slice (offset + 1))) 16))
    (← shl (← cast 32 (← sidx slice (offset + 2))) 8)) (← cast 32 (← sidx slice (offset + 3)))
/-- src/aes_table_based.rs:18-23 `store_u32_be`. -/
def store_u32_be (slice : List U8) (num : U32) : L (List U8) := do
  let slice ← supd slice 0 (← cast 8 (← shr num 24))
  let slice ← supd slice 1 (← cast 8 (← shr num 16))
  let slice ← supd slice 2 (← cast 8 (← shr num 8))
  let slice ← supd slice 3 (← cast 8 num)
  pure slice
/-- src/aes_table_based.rs:84-91 `AesBlock::new`. -/
def new (value : Vector U8 16) : L Block := do
  pure ⟨← load_u32_be value.toList 0, ← load_u32_be value.toList 4,
    ← load_u32_be value.toList 8, ← load_u32_be value.toList 12⟩
/-- src/aes_table_based.rs:25-30 `From<[u8; 16]>`. -/
def from_bytes (value : Vector U8 16) : L Block := new value
/-- src/aes_table_based.rs:95-101 `store_to`. -/
def store_to (self : Block) (dst : List U8) : L (List U8) := do
  assert (dst.length ≥ 16)
  let dst ← store_u32_be dst self.w0
  let dst ← onFrom dst 4 fun s => store_u32_be s self.w1
  let dst ← onFrom dst 8 fun s => store_u32_be s self.w2
  let dst ← onFrom dst 12 fun s => store_u32_be s self.w3
  pure dst
/-- src/aes_table_based.rs:104-106 `zero`. -/
def zero : L Block := pure ⟨0, 0, 0, 0⟩
/-- src/aes_table_based.rs:110-112 `is_zero`. -/
def is_zero (self : Block) : L Bool := do eqw (← or (← or (← or self.w0 self.w1) self.w2) self.w3) 0
/-- src/aes_table_based.rs:4 derived `PartialEq`: field by field, stopping at the first difference. -/
def eq (self other : Block) : L Bool :=
  andAlso (eqw self.w0 other.w0) (andAlso (eqw self.w1 other.w1) (andAlso (eqw self.w2 other.w2) (eqw self.w3 other.w3)))
/-- src/aes_table_based.rs:74-81 `Not`. -/
def not (self : Block) : L Block := do
  pure ⟨← Leak.not self.w0, ← Leak.not self.w1, ← Leak.not self.w2, ← Leak.not self.w3⟩
/-- `$table[x as u8 as usize]` (src/aes_table_based.rs:366-371): the index is visible; no bounds check is needed for a `u8`
index into 256 entries. -/
def lookup (a : Arr) (table : Vector U32 256) (x : U32) : L U32 := do
  let i ← cast 8 x
  ⟨[.read a i.toNat], .ok (Aes.Table.lookup table x)⟩
/-- src/aes_table_based.rs:366-371,374-382 `te0`. -/
def te0 (x : U32) : L U32 := lookup .TE0 Aes.Table.TE0 x
/-- src/aes_table_based.rs:366-371,374-382 `te1`. -/
def te1 (x : U32) : L U32 := lookup .TE1 Aes.Table.TE1 x
/-- src/aes_table_based.rs:366-371,374-382 `te2`. -/
def te2 (x : U32) : L U32 := lookup .TE2 Aes.Table.TE2 x
/-- src/aes_table_based.rs:366-371,374-382 `te3`. -/
def te3 (x : U32) : L U32 := lookup .TE3 Aes.Table.TE3 x
/-- src/aes_table_based.rs:366-371,374-382 `td0`. -/
def td0 (x : U32) : L U32 := lookup .TD0 Aes.Table.TD0 x
/-- src/aes_table_based.rs:366-371,374-382 `td1`. -/
def td1 (x : U32) : L U32 := lookup .TD1 Aes.Table.TD1 x
/-- src/aes_table_based.rs:366-371,374-382 `td2`. -/
def td2 (x : U32) : L U32 := lookup .TD2 Aes.Table.TD2 x
/-- src/aes_table_based.rs:366-371,374-382 `td3`. -/
def td3 (x : U32) : L U32 := lookup .TD3 Aes.Table.TD3 x
/-- src/aes_table_based.rs:357-364,384 `te4_0`. -/
def te4_0 (x : U32) : L U32 := do and (← lookup .TE4 Aes.Table.TE4 x) 0xff000000#32
/-- src/aes_table_based.rs:357-364,384 `te4_1`. -/
def te4_1 (x : U32) : L U32 := do and (← lookup .TE4 Aes.Table.TE4 x) 0xff0000#32
/-- src/aes_table_based.rs:357-364,384 `te4_2`. -/
def te4_2 (x : U32) : L U32 := do and (← lookup .TE4 Aes.Table.TE4 x) 0xff00#32
/-- src/aes_table_based.rs:357-364,384 `te4_3`. -/
def te4_3 (x : U32) : L U32 := do and (← lookup .TE4 Aes.Table.TE4 x) 0xff#32
/-- src/aes_table_based.rs:357-364,384 `td4_0`. -/
def td4_0 (x : U32) : L U32 := do and (← lookup .TD4 Aes.Table.TD4 x) 0xff000000#32
/-- src/aes_table_based.rs:357-364,384 `td4_1`. -/
def td4_1 (x : U32) : L U32 := do and (← lookup .TD4 Aes.Table.TD4 x) 0xff0000#32
/-- src/aes_table_based.rs:357-364,384 `td4_2`. -/
def td4_2 (x : U32) : L U32 := do and (← lookup .TD4 Aes.Table.TD4 x) 0xff00#32
/-- src/aes_table_based.rs:357-364,384 `td4_3`. -/
def td4_3 (x : U32) : L U32 := do and (← lookup .TD4 Aes.Table.TD4 x) 0xff#32
/-- src/aes_table_based.rs:116-123 `enc`. -/
def enc (self round_key : Block) : L Block := do
  pure ⟨← xor (← xor (← xor (← xor (← te0 (← shr self.w0 24)) (← te1 (← shr self.w1 16))) (← te2 (← shr self.w2 8))) (← te3 self.w3)) round_key.w0,
    ← xor (← xor (← xor (← xor (← te0 (← shr self.w1 24)) (← te1 (← shr self.w2 16))) (← te2 (← shr self.w3 8))) (← te3 self.w0)) round_key.w1,
    ← xor (← xor (← xor (← xor (← te0 (← shr self.w2 24)) (← te1 (← shr self.w3 16))) (← te2 (← shr self.w0 8))) (← te3 self.w1)) round_key.w2,
    ← xor (← xor (← xor (← xor (← te0 (← shr self.w3 24)) (← te1 (← shr self.w0 16))) (← te2 (← shr self.w1 8))) (← te3 self.w2)) round_key.w3⟩
/-- src/aes_table_based.rs:127-150 `enc_last`. -/
def enc_last (self round_key : Block) : L Block := do
  pure ⟨← xor (← xor (← xor (← xor (← te4_0 (← shr self.w0 24)) (← te4_1 (← shr self.w1 16))) (← te4_2 (← shr self.w2 8))) (← te4_3 self.w3)) round_key.w0,
    ← xor (← xor (← xor (← xor (← te4_0 (← shr self.w1 24)) (← te4_1 (← shr self.w2 16))) (← te4_2 (← shr self.w3 8))) (← te4_3 self.w0)) round_key.w1,
    ← xor (← xor (← xor (← xor (← te4_0 (← shr self.w2 24)) (← te4_1 (← shr self.w3 16))) (← te4_2 (← shr self.w0 8))) (← te4_3 self.w1)) round_key.w2,
    ← xor (← xor (← xor (← xor (← te4_0 (← shr self.w3 24)) (← te4_1 (← shr self.w0 16))) (← te4_2 (← shr self.w1 8))) (← te4_3 self.w2)) round_key.w3⟩
/-- src/aes_table_based.rs:154-161 `dec`. -/
def dec (self round_key : Block) : L Block := do
  pure ⟨← xor (← xor (← xor (← xor (← td0 (← shr self.w0 24)) (← td1 (← shr self.w3 16))) (← td2 (← shr self.w2 8))) (← td3 self.w1)) round_key.w0,
    ← xor (← xor (← xor (← xor (← td0 (← shr self.w1 24)) (← td1 (← shr self.w0 16))) (← td2 (← shr self.w3 8))) (← td3 self.w2)) round_key.w1,
    ← xor (← xor (← xor (← xor (← td0 (← shr self.w2 24)) (← td1 (← shr self.w1 16))) (← td2 (← shr self.w0 8))) (← td3 self.w3)) round_key.w2,
    ← xor (← xor (← xor (← xor (← td0 (← shr self.w3 24)) (← td1 (← shr self.w2 16))) (← td2 (← shr self.w1 8))) (← td3 self.w0)) round_key.w3⟩
/-- src/aes_table_based.rs:165-188 `dec_last`. -/
def dec_last (self round_key : Block) : L Block := do
  pure ⟨← xor (← xor (← xor (← xor (← td4_0 (← shr self.w0 24)) (← td4_1 (← shr self.w3 16))) (← td4_2 (← shr self.w2 8))) (← td4_3 self.w1)) round_key.w0,
    ← xor (← xor (← xor (← xor (← td4_0 (← shr self.w1 24)) (← td4_1 (← shr self.w0 16))) (← td4_2 (← shr self.w3 8))) (← td4_3 self.w2)) round_key.w1,
    ← xor (← xor (← xor (← xor (← td4_0 (← shr self.w2 24)) (← td4_1 (← shr self.w1 16))) (← td4_2 (← shr self.w0 8))) (← td4_3 self.w3)) round_key.w2,
    ← xor (← xor (← xor (← xor (← td4_0 (← shr self.w3 24)) (← td4_1 (← shr self.w2 16))) (← td4_2 (← shr self.w1 8))) (← td4_3 self.w0)) round_key.w3⟩
/-- src/aes_table_based.rs:192-211 `mc`. -/
def mc (self : Block) : L Block := do
  pure ⟨← xor (← xor (← xor (← te0 (← td4_3 (← shr self.w0 24))) (← te1 (← td4_3 (← shr self.w0 16)))) (← te2 (← td4_3 (← shr self.w0 8)))) (← te3 (← td4_3 self.w0)),
    ← xor (← xor (← xor (← te0 (← td4_3 (← shr self.w1 24))) (← te1 (← td4_3 (← shr self.w1 16)))) (← te2 (← td4_3 (← shr self.w1 8)))) (← te3 (← td4_3 self.w1)),
    ← xor (← xor (← xor (← te0 (← td4_3 (← shr self.w2 24))) (← te1 (← td4_3 (← shr self.w2 16)))) (← te2 (← td4_3 (← shr self.w2 8)))) (← te3 (← td4_3 self.w2)),
    ← xor (← xor (← xor (← te0 (← td4_3 (← shr self.w3 24))) (← te1 (← td4_3 (← shr self.w3 16)))) (← te2 (← td4_3 (← shr self.w3 8)))) (← te3 (← td4_3 self.w3))⟩
/-- src/aes_table_based.rs:215-234 `imc`. -/
def imc (self : Block) : L Block := do
  pure ⟨← xor (← xor (← xor (← td0 (← te4_3 (← shr self.w0 24))) (← td1 (← te4_3 (← shr self.w0 16)))) (← td2 (← te4_3 (← shr self.w0 8)))) (← td3 (← te4_3 self.w0)),
    ← xor (← xor (← xor (← td0 (← te4_3 (← shr self.w1 24))) (← td1 (← te4_3 (← shr self.w1 16)))) (← td2 (← te4_3 (← shr self.w1 8)))) (← td3 (← te4_3 self.w1)),
    ← xor (← xor (← xor (← td0 (← te4_3 (← shr self.w2 24))) (← td1 (← te4_3 (← shr self.w2 16)))) (← td2 (← te4_3 (← shr self.w2 8)))) (← td3 (← te4_3 self.w2)),
    ← xor (← xor (← xor (← td0 (← te4_3 (← shr self.w3 24))) (← td1 (← te4_3 (← shr self.w3 16)))) (← td2 (← te4_3 (← shr self.w3 8)))) (← td3 (← te4_3 self.w3))⟩
/-- src/aes_table_based.rs:238-240 `sub_word` (RotWord and SubWord combined). -/
def sub_word (x : U32) : L U32 := do
  or (← or (← or (← te4_0 (← shr x 16)) (← te4_1 (← shr x 8))) (← te4_2 x)) (← te4_3 (← shr x 24))
/-- src/aes_table_based.rs:242-248 `keyexp_128`. -/
def keyexp_128 (RCON : U32) (prev_rkey : Block) : L Block := do
  let k0 ← xor (← xor prev_rkey.w0 (← sub_word prev_rkey.w3)) RCON
  let k1 ← xor prev_rkey.w1 k0
  let k2 ← xor prev_rkey.w2 k1
  let k3 ← xor prev_rkey.w3 k2
  pure ⟨k0, k1, k2, k3⟩
/-- src/aes_table_based.rs:261-267 `keyexp_256_1`. -/
def keyexp_256_1 (RCON : U32) (prev0 prev1 : Block) : L Block := do
  let k0 ← xor (← xor prev0.w0 (← sub_word prev1.w3)) RCON
  let k1 ← xor prev0.w1 k0
  let k2 ← xor prev0.w2 k1
  let k3 ← xor prev0.w3 k2
  pure ⟨k0, k1, k2, k3⟩
/-- src/aes_table_based.rs:269-275 `keyexp_256_2`. -/
def keyexp_256_2 (prev0 prev1 : Block) : L Block := do
  let k0 ← xor prev0.w0 (← sub_word (← rotr prev1.w3 8))
  let k1 ← xor prev0.w1 k0
  let k2 ← xor prev0.w2 k1
  let k3 ← xor prev0.w3 k2
  pure ⟨k0, k1, k2, k3⟩
/-- src/aes_table_based.rs:32-44 `BitAnd`. -/
def bitand (self rhs : Block) : L Block := do
  pure ⟨← and self.w0 rhs.w0,
    ← and self.w1 rhs.w1,
    ← and self.w2 rhs.w2,
    ← and self.w3 rhs.w3⟩
/-- src/aes_table_based.rs:46-58 `BitOr`. -/
def bitor (self rhs : Block) : L Block := do
  pure ⟨← or self.w0 rhs.w0,
    ← or self.w1 rhs.w1,
    ← or self.w2 rhs.w2,
    ← or self.w3 rhs.w3⟩
/-- src/aes_table_based.rs:60-72 `BitXor`. -/
def bitxor (self rhs : Block) : L Block := do
  pure ⟨← xor self.w0 rhs.w0,
    ← xor self.w1 rhs.w1,
    ← xor self.w2 rhs.w2,
    ← xor self.w3 rhs.w3⟩
/-- src/aes_table_based.rs:250-259 `keyexp_192`. -/
def keyexp_192 (RCON : U32) (prev : Vector U32 6) : L (Vector U32 6) := do
  let k0 ← xor (← xor (← idx .data prev 0) (← sub_word (← idx .data prev 5))) RCON
  let k1 ← xor (← idx .data prev 1) k0
  let k2 ← xor (← idx .data prev 2) k1
  let k3 ← xor (← idx .data prev 3) k2
  let k4 ← xor (← idx .data prev 4) k3
  let k5 ← xor (← idx .data prev 5) k4
  pure #v[k0, k1, k2, k3, k4, k5]

/-- src/aes_table_based.rs:277-293 `keygen_128`. -/
def keygen_128 (key : Vector U8 16) : L (Vector Block 11) := do
  let key0 ← from_bytes key
  let key1 ← keyexp_128 0x01000000#32 key0
  let key2 ← keyexp_128 0x02000000#32 key1
  let key3 ← keyexp_128 0x04000000#32 key2
  let key4 ← keyexp_128 0x08000000#32 key3
  let key5 ← keyexp_128 0x10000000#32 key4
  let key6 ← keyexp_128 0x20000000#32 key5
  let key7 ← keyexp_128 0x40000000#32 key6
  let key8 ← keyexp_128 0x80000000#32 key7
  let key9 ← keyexp_128 0x1b000000#32 key8
  let key10 ← keyexp_128 0x36000000#32 key9
  pure #v[key0, key1, key2, key3, key4, key5, key6, key7, key8, key9, key10]

/-- src/aes_table_based.rs:295-329 `keygen_192`. -/
def keygen_192 (key : Vector U8 24) : L (Vector Block 13) := do
  let k : Vector U32 6 := #v[← load_u32_be key.toList 0, ← load_u32_be key.toList 4,
    ← load_u32_be key.toList 8, ← load_u32_be key.toList 12, ← load_u32_be key.toList 16,
    ← load_u32_be key.toList 20]
  let key0 : Block := ⟨← idx .data k 0, ← idx .data k 1, ← idx .data k 2, ← idx .data k 3⟩
  let p ← keyexp_192 0x01000000#32 k
  let key1 : Block := ⟨← idx .data k 4, ← idx .data k 5, ← idx .data p 0, ← idx .data p 1⟩
  let key2 : Block := ⟨← idx .data p 2, ← idx .data p 3, ← idx .data p 4, ← idx .data p 5⟩
  let k ← keyexp_192 0x02000000#32 p
  let key3 : Block := ⟨← idx .data k 0, ← idx .data k 1, ← idx .data k 2, ← idx .data k 3⟩
  let p ← keyexp_192 0x04000000#32 k
  let key4 : Block := ⟨← idx .data k 4, ← idx .data k 5, ← idx .data p 0, ← idx .data p 1⟩
  let key5 : Block := ⟨← idx .data p 2, ← idx .data p 3, ← idx .data p 4, ← idx .data p 5⟩
  let k ← keyexp_192 0x08000000#32 p
  let key6 : Block := ⟨← idx .data k 0, ← idx .data k 1, ← idx .data k 2, ← idx .data k 3⟩
  let p ← keyexp_192 0x10000000#32 k
  let key7 : Block := ⟨← idx .data k 4, ← idx .data k 5, ← idx .data p 0, ← idx .data p 1⟩
  let key8 : Block := ⟨← idx .data p 2, ← idx .data p 3, ← idx .data p 4, ← idx .data p 5⟩
  let k ← keyexp_192 0x20000000#32 p
  let key9 : Block := ⟨← idx .data k 0, ← idx .data k 1, ← idx .data k 2, ← idx .data k 3⟩
  let p ← keyexp_192 0x40000000#32 k
  let key10 : Block := ⟨← idx .data k 4, ← idx .data k 5, ← idx .data p 0, ← idx .data p 1⟩
  let key11 : Block := ⟨← idx .data p 2, ← idx .data p 3, ← idx .data p 4, ← idx .data p 5⟩
  let k ← keyexp_192 0x80000000#32 p
  let key12 : Block := ⟨← idx .data k 0, ← idx .data k 1, ← idx .data k 2, ← idx .data k 3⟩
  pure #v[key0, key1, key2, key3, key4, key5, key6, key7, key8, key9, key10, key11, key12]

/-- src/aes_table_based.rs:331-353 `keygen_256`; `AesBlock::try_from(..).unwrap()` is src/lib.rs:172-179
followed by `Result::unwrap`. -/
def keygen_256 (key : Vector U8 32) : L (Vector Block 15) := do
  let key0 ← unwrap (← try_from_slice 16 from_bytes (← sliceTo key.toList 16))
  let key1 ← unwrap (← try_from_slice 16 from_bytes (← sliceFrom key.toList 16))
  let key2 ← keyexp_256_1 0x01000000#32 key0 key1
  let key3 ← keyexp_256_2 key1 key2
  let key4 ← keyexp_256_1 0x02000000#32 key2 key3
  let key5 ← keyexp_256_2 key3 key4
  let key6 ← keyexp_256_1 0x04000000#32 key4 key5
  let key7 ← keyexp_256_2 key5 key6
  let key8 ← keyexp_256_1 0x08000000#32 key6 key7
  let key9 ← keyexp_256_2 key7 key8
  let key10 ← keyexp_256_1 0x10000000#32 key8 key9
  let key11 ← keyexp_256_2 key9 key10
  let key12 ← keyexp_256_1 0x20000000#32 key10 key11
  let key13 ← keyexp_256_2 key11 key12
  let key14 ← keyexp_256_1 0x40000000#32 key12 key13
  pure #v[key0, key1, key2, key3, key4, key5, key6, key7, key8, key9, key10, key11, key12, key13, key14]

/-- The API of the module (no `pre_enc`/`pre_dec` in src/aes_table_based.rs). -/
instance : LBlock Block where
  new := new
  from_bytes := from_bytes
  store_to := store_to
  zero := zero
  is_zero := is_zero
  eq := eq
  bitand := bitand
  bitor := bitor
  bitxor := bitxor
  not := not
  enc := enc
  dec := dec
  enc_last := enc_last
  dec_last := dec_last
  pre := none
  mc := mc
  imc := imc
  keygen_128 := keygen_128
  keygen_192 := keygen_192
  keygen_256 := keygen_256

end Aes.Leak.Table
