import Verif.Model.Lib
import Verif.Model.TableData
/-
Model of src/aes_table_based.rs (the default software implementation).
The code is endianness-independent: it loads and stores bytes with shifts.
-/
namespace Aes.Table
open Rust

/-- src/aes_table_based.rs:4-7 `struct AesBlock(u32, u32, u32, u32)`, derived `PartialEq`/`Eq`. -/
structure Block where
  w0 : U32
  w1 : U32
  w2 : U32
  w3 : U32
deriving DecidableEq, Repr

/-- src/aes_table_based.rs:10-15 `load_u32_be` (slice indexing panics when out of range). -/
def load_u32_be (slice : List U8) (offset : Nat) : M U32 := do
  pure <| ((← sidx slice (offset + 0)).setWidth 32 <<< 24)
    ||| ((← sidx slice (offset + 1)).setWidth 32 <<< 16)
    ||| ((← sidx slice (offset + 2)).setWidth 32 <<< 8)
    ||| (← sidx slice (offset + 3)).setWidth 32

/-- src/aes_table_based.rs:18-23 `store_u32_be`. -/
def store_u32_be (slice : List U8) (num : U32) : M (List U8) := do
  let slice ← supd slice 0 ((num >>> 24).setWidth 8)
  let slice ← supd slice 1 ((num >>> 16).setWidth 8)
  let slice ← supd slice 2 ((num >>> 8).setWidth 8)
  let slice ← supd slice 3 (num.setWidth 8)
  pure slice

/-- src/aes_table_based.rs:84-91 `AesBlock::new`. -/
def new (value : Vector U8 16) : M Block := do
  pure ⟨← load_u32_be value.toList 0, ← load_u32_be value.toList 4,
    ← load_u32_be value.toList 8, ← load_u32_be value.toList 12⟩

/-- src/aes_table_based.rs:25-30 `From<[u8; 16]>`. -/
def from_bytes (value : Vector U8 16) : M Block := new value

/-- src/aes_table_based.rs:32-44 `BitAnd`. -/
def bitand (self rhs : Block) : Block :=
  ⟨self.w0 &&& rhs.w0, self.w1 &&& rhs.w1, self.w2 &&& rhs.w2, self.w3 &&& rhs.w3⟩
/-- src/aes_table_based.rs:46-58 `BitOr`. -/
def bitor (self rhs : Block) : Block :=
  ⟨self.w0 ||| rhs.w0, self.w1 ||| rhs.w1, self.w2 ||| rhs.w2, self.w3 ||| rhs.w3⟩
/-- src/aes_table_based.rs:60-72 `BitXor`. -/
def bitxor (self rhs : Block) : Block :=
  ⟨self.w0 ^^^ rhs.w0, self.w1 ^^^ rhs.w1, self.w2 ^^^ rhs.w2, self.w3 ^^^ rhs.w3⟩
/-- src/aes_table_based.rs:74-81 `Not`. -/
def not (self : Block) : Block := ⟨~~~self.w0, ~~~self.w1, ~~~self.w2, ~~~self.w3⟩

/-- src/aes_table_based.rs:95-101 `store_to`. -/
def store_to (self : Block) (dst : List U8) : M (List U8) := do
  assert (dst.length ≥ 16)
  let dst ← store_u32_be dst self.w0
  let dst ← onFrom dst 4 fun s => store_u32_be s self.w1
  let dst ← onFrom dst 8 fun s => store_u32_be s self.w2
  let dst ← onFrom dst 12 fun s => store_u32_be s self.w3
  pure dst

/-- src/aes_table_based.rs:104-106 `zero`. -/
def zero : Block := ⟨0, 0, 0, 0⟩
/-- src/aes_table_based.rs:110-112 `is_zero`. -/
def is_zero (self : Block) : Bool := (self.w0 ||| self.w1 ||| self.w2 ||| self.w3) == 0

/-- `$table[x as u8 as usize]` (src/aes_table_based.rs:366-371): a `u8` index into 256 entries is
always in range. -/
def lookup (table : Vector U32 256) (x : U32) : U32 :=
  table[(x.setWidth 8).toNat]'((x.setWidth 8).isLt)

/-- src/aes_table_based.rs:375. -/
def te0 (x : U32) : U32 := lookup TE0 x
/-- src/aes_table_based.rs:376. -/
def te1 (x : U32) : U32 := lookup TE1 x
/-- src/aes_table_based.rs:377. -/
def te2 (x : U32) : U32 := lookup TE2 x
/-- src/aes_table_based.rs:378. -/
def te3 (x : U32) : U32 := lookup TE3 x
/-- src/aes_table_based.rs:379. -/
def td0 (x : U32) : U32 := lookup TD0 x
/-- src/aes_table_based.rs:380. -/
def td1 (x : U32) : U32 := lookup TD1 x
/-- src/aes_table_based.rs:381. -/
def td2 (x : U32) : U32 := lookup TD2 x
/-- src/aes_table_based.rs:382. -/
def td3 (x : U32) : U32 := lookup TD3 x
/-- src/aes_table_based.rs:357-360,384. -/
def te4_0 (x : U32) : U32 := lookup TE4 x &&& 0xff000000#32
/-- src/aes_table_based.rs:357-360,384. -/
def te4_1 (x : U32) : U32 := lookup TE4 x &&& 0xff0000#32
/-- src/aes_table_based.rs:357-360,384. -/
def te4_2 (x : U32) : U32 := lookup TE4 x &&& 0xff00#32
/-- src/aes_table_based.rs:357-360,384. -/
def te4_3 (x : U32) : U32 := lookup TE4 x &&& 0xff#32
/-- src/aes_table_based.rs:361-364,384. -/
def td4_0 (x : U32) : U32 := lookup TD4 x &&& 0xff000000#32
/-- src/aes_table_based.rs:361-364,384. -/
def td4_1 (x : U32) : U32 := lookup TD4 x &&& 0xff0000#32
/-- src/aes_table_based.rs:361-364,384. -/
def td4_2 (x : U32) : U32 := lookup TD4 x &&& 0xff00#32
/-- src/aes_table_based.rs:361-364,384. -/
def td4_3 (x : U32) : U32 := lookup TD4 x &&& 0xff#32

/-- src/aes_table_based.rs:116-123 `enc`. -/
def enc (self round_key : Block) : Block :=
  ⟨te0 (self.w0 >>> 24) ^^^ te1 (self.w1 >>> 16) ^^^ te2 (self.w2 >>> 8) ^^^ te3 self.w3 ^^^ round_key.w0,
   te0 (self.w1 >>> 24) ^^^ te1 (self.w2 >>> 16) ^^^ te2 (self.w3 >>> 8) ^^^ te3 self.w0 ^^^ round_key.w1,
   te0 (self.w2 >>> 24) ^^^ te1 (self.w3 >>> 16) ^^^ te2 (self.w0 >>> 8) ^^^ te3 self.w1 ^^^ round_key.w2,
   te0 (self.w3 >>> 24) ^^^ te1 (self.w0 >>> 16) ^^^ te2 (self.w1 >>> 8) ^^^ te3 self.w2 ^^^ round_key.w3⟩

/-- src/aes_table_based.rs:127-150 `enc_last`. -/
def enc_last (self round_key : Block) : Block :=
  ⟨te4_0 (self.w0 >>> 24) ^^^ te4_1 (self.w1 >>> 16) ^^^ te4_2 (self.w2 >>> 8) ^^^ te4_3 self.w3 ^^^ round_key.w0,
   te4_0 (self.w1 >>> 24) ^^^ te4_1 (self.w2 >>> 16) ^^^ te4_2 (self.w3 >>> 8) ^^^ te4_3 self.w0 ^^^ round_key.w1,
   te4_0 (self.w2 >>> 24) ^^^ te4_1 (self.w3 >>> 16) ^^^ te4_2 (self.w0 >>> 8) ^^^ te4_3 self.w1 ^^^ round_key.w2,
   te4_0 (self.w3 >>> 24) ^^^ te4_1 (self.w0 >>> 16) ^^^ te4_2 (self.w1 >>> 8) ^^^ te4_3 self.w2 ^^^ round_key.w3⟩

/-- src/aes_table_based.rs:154-161 `dec`. -/
def dec (self round_key : Block) : Block :=
  ⟨td0 (self.w0 >>> 24) ^^^ td1 (self.w3 >>> 16) ^^^ td2 (self.w2 >>> 8) ^^^ td3 self.w1 ^^^ round_key.w0,
   td0 (self.w1 >>> 24) ^^^ td1 (self.w0 >>> 16) ^^^ td2 (self.w3 >>> 8) ^^^ td3 self.w2 ^^^ round_key.w1,
   td0 (self.w2 >>> 24) ^^^ td1 (self.w1 >>> 16) ^^^ td2 (self.w0 >>> 8) ^^^ td3 self.w3 ^^^ round_key.w2,
   td0 (self.w3 >>> 24) ^^^ td1 (self.w2 >>> 16) ^^^ td2 (self.w1 >>> 8) ^^^ td3 self.w0 ^^^ round_key.w3⟩

/-- src/aes_table_based.rs:165-188 `dec_last`. -/
def dec_last (self round_key : Block) : Block :=
  ⟨td4_0 (self.w0 >>> 24) ^^^ td4_1 (self.w3 >>> 16) ^^^ td4_2 (self.w2 >>> 8) ^^^ td4_3 self.w1 ^^^ round_key.w0,
   td4_0 (self.w1 >>> 24) ^^^ td4_1 (self.w0 >>> 16) ^^^ td4_2 (self.w3 >>> 8) ^^^ td4_3 self.w2 ^^^ round_key.w1,
   td4_0 (self.w2 >>> 24) ^^^ td4_1 (self.w1 >>> 16) ^^^ td4_2 (self.w0 >>> 8) ^^^ td4_3 self.w3 ^^^ round_key.w2,
   td4_0 (self.w3 >>> 24) ^^^ td4_1 (self.w2 >>> 16) ^^^ td4_2 (self.w1 >>> 8) ^^^ td4_3 self.w0 ^^^ round_key.w3⟩

/-- src/aes_table_based.rs:192-211 `mc`. -/
def mc (self : Block) : Block :=
  ⟨te0 (td4_3 (self.w0 >>> 24)) ^^^ te1 (td4_3 (self.w0 >>> 16)) ^^^ te2 (td4_3 (self.w0 >>> 8)) ^^^ te3 (td4_3 self.w0),
   te0 (td4_3 (self.w1 >>> 24)) ^^^ te1 (td4_3 (self.w1 >>> 16)) ^^^ te2 (td4_3 (self.w1 >>> 8)) ^^^ te3 (td4_3 self.w1),
   te0 (td4_3 (self.w2 >>> 24)) ^^^ te1 (td4_3 (self.w2 >>> 16)) ^^^ te2 (td4_3 (self.w2 >>> 8)) ^^^ te3 (td4_3 self.w2),
   te0 (td4_3 (self.w3 >>> 24)) ^^^ te1 (td4_3 (self.w3 >>> 16)) ^^^ te2 (td4_3 (self.w3 >>> 8)) ^^^ te3 (td4_3 self.w3)⟩

/-- src/aes_table_based.rs:215-234 `imc`. -/
def imc (self : Block) : Block :=
  ⟨td0 (te4_3 (self.w0 >>> 24)) ^^^ td1 (te4_3 (self.w0 >>> 16)) ^^^ td2 (te4_3 (self.w0 >>> 8)) ^^^ td3 (te4_3 self.w0),
   td0 (te4_3 (self.w1 >>> 24)) ^^^ td1 (te4_3 (self.w1 >>> 16)) ^^^ td2 (te4_3 (self.w1 >>> 8)) ^^^ td3 (te4_3 self.w1),
   td0 (te4_3 (self.w2 >>> 24)) ^^^ td1 (te4_3 (self.w2 >>> 16)) ^^^ td2 (te4_3 (self.w2 >>> 8)) ^^^ td3 (te4_3 self.w2),
   td0 (te4_3 (self.w3 >>> 24)) ^^^ td1 (te4_3 (self.w3 >>> 16)) ^^^ td2 (te4_3 (self.w3 >>> 8)) ^^^ td3 (te4_3 self.w3)⟩

/-- src/aes_table_based.rs:238-240 `sub_word` (RotWord and SubWord combined). -/
def sub_word (x : U32) : U32 :=
  te4_0 (x >>> 16) ||| te4_1 (x >>> 8) ||| te4_2 x ||| te4_3 (x >>> 24)

/-- src/aes_table_based.rs:242-248 `keyexp_128`. -/
def keyexp_128 (RCON : U32) (prev_rkey : Block) : Block :=
  let k0 := prev_rkey.w0 ^^^ sub_word prev_rkey.w3 ^^^ RCON
  let k1 := prev_rkey.w1 ^^^ k0
  let k2 := prev_rkey.w2 ^^^ k1
  let k3 := prev_rkey.w3 ^^^ k2
  ⟨k0, k1, k2, k3⟩

/-- src/aes_table_based.rs:250-259 `keyexp_192` (constant in-range indices into `[u32; 6]`). -/
def keyexp_192 (RCON : U32) (prev : Vector U32 6) : Vector U32 6 :=
  let k0 := prev[0] ^^^ sub_word prev[5] ^^^ RCON
  let k1 := prev[1] ^^^ k0
  let k2 := prev[2] ^^^ k1
  let k3 := prev[3] ^^^ k2
  let k4 := prev[4] ^^^ k3
  let k5 := prev[5] ^^^ k4
  #v[k0, k1, k2, k3, k4, k5]

/-- src/aes_table_based.rs:261-267 `keyexp_256_1`. -/
def keyexp_256_1 (RCON : U32) (prev0 prev1 : Block) : Block :=
  let k0 := prev0.w0 ^^^ sub_word prev1.w3 ^^^ RCON
  let k1 := prev0.w1 ^^^ k0
  let k2 := prev0.w2 ^^^ k1
  let k3 := prev0.w3 ^^^ k2
  ⟨k0, k1, k2, k3⟩

/-- src/aes_table_based.rs:269-275 `keyexp_256_2`. -/
def keyexp_256_2 (prev0 prev1 : Block) : Block :=
  let k0 := prev0.w0 ^^^ sub_word (prev1.w3.rotateRight 8)
  let k1 := prev0.w1 ^^^ k0
  let k2 := prev0.w2 ^^^ k1
  let k3 := prev0.w3 ^^^ k2
  ⟨k0, k1, k2, k3⟩

/-- src/aes_table_based.rs:277-293 `keygen_128`. -/
def keygen_128 (key : Vector U8 16) : M (Vector Block 11) := do
  let key0 ← from_bytes key
  let key1 := keyexp_128 0x01000000#32 key0
  let key2 := keyexp_128 0x02000000#32 key1
  let key3 := keyexp_128 0x04000000#32 key2
  let key4 := keyexp_128 0x08000000#32 key3
  let key5 := keyexp_128 0x10000000#32 key4
  let key6 := keyexp_128 0x20000000#32 key5
  let key7 := keyexp_128 0x40000000#32 key6
  let key8 := keyexp_128 0x80000000#32 key7
  let key9 := keyexp_128 0x1b000000#32 key8
  let key10 := keyexp_128 0x36000000#32 key9
  pure #v[key0, key1, key2, key3, key4, key5, key6, key7, key8, key9, key10]

/-- src/aes_table_based.rs:295-329 `keygen_192`. -/
def keygen_192 (key : Vector U8 24) : M (Vector Block 13) := do
  let k : Vector U32 6 := #v[← load_u32_be key.toList 0, ← load_u32_be key.toList 4,
    ← load_u32_be key.toList 8, ← load_u32_be key.toList 12, ← load_u32_be key.toList 16,
    ← load_u32_be key.toList 20]
  let key0 : Block := ⟨k[0], k[1], k[2], k[3]⟩
  let p := keyexp_192 0x01000000#32 k
  let key1 : Block := ⟨k[4], k[5], p[0], p[1]⟩
  let key2 : Block := ⟨p[2], p[3], p[4], p[5]⟩
  let k := keyexp_192 0x02000000#32 p
  let key3 : Block := ⟨k[0], k[1], k[2], k[3]⟩
  let p := keyexp_192 0x04000000#32 k
  let key4 : Block := ⟨k[4], k[5], p[0], p[1]⟩
  let key5 : Block := ⟨p[2], p[3], p[4], p[5]⟩
  let k := keyexp_192 0x08000000#32 p
  let key6 : Block := ⟨k[0], k[1], k[2], k[3]⟩
  let p := keyexp_192 0x10000000#32 k
  let key7 : Block := ⟨k[4], k[5], p[0], p[1]⟩
  let key8 : Block := ⟨p[2], p[3], p[4], p[5]⟩
  let k := keyexp_192 0x20000000#32 p
  let key9 : Block := ⟨k[0], k[1], k[2], k[3]⟩
  let p := keyexp_192 0x40000000#32 k
  let key10 : Block := ⟨k[4], k[5], p[0], p[1]⟩
  let key11 : Block := ⟨p[2], p[3], p[4], p[5]⟩
  let k := keyexp_192 0x80000000#32 p
  let key12 : Block := ⟨k[0], k[1], k[2], k[3]⟩
  pure #v[key0, key1, key2, key3, key4, key5, key6, key7, key8, key9, key10, key11, key12]

/-- src/aes_table_based.rs:331-353 `keygen_256`; `AesBlock::try_from(..).unwrap()` is src/lib.rs:172-179
followed by `Result::unwrap`. -/
def keygen_256 (key : Vector U8 32) : M (Vector Block 15) := do
  let key0 ← unwrap (← try_from_slice 16 from_bytes (← sliceTo key.toList 16))
  let key1 ← unwrap (← try_from_slice 16 from_bytes (← sliceFrom key.toList 16))
  let key2 := keyexp_256_1 0x01000000#32 key0 key1
  let key3 := keyexp_256_2 key1 key2
  let key4 := keyexp_256_1 0x02000000#32 key2 key3
  let key5 := keyexp_256_2 key3 key4
  let key6 := keyexp_256_1 0x04000000#32 key4 key5
  let key7 := keyexp_256_2 key5 key6
  let key8 := keyexp_256_1 0x08000000#32 key6 key7
  let key9 := keyexp_256_2 key7 key8
  let key10 := keyexp_256_1 0x10000000#32 key8 key9
  let key11 := keyexp_256_2 key9 key10
  let key12 := keyexp_256_1 0x20000000#32 key10 key11
  let key13 := keyexp_256_2 key11 key12
  let key14 := keyexp_256_1 0x40000000#32 key12 key13
  pure #v[key0, key1, key2, key3, key4, key5, key6, key7, key8, key9, key10, key11, key12, key13, key14]

/-- The API of the module (no `pre_enc`/`pre_dec` in src/aes_table_based.rs). -/
instance : AesBlock Block where
  new := new
  from_bytes := from_bytes
  store_to := store_to
  zero := zero
  is_zero := is_zero
  eq := fun a b => decide (a = b)
  bitand := bitand
  bitor := bitor
  bitxor := bitxor
  not := not
  enc := enc
  dec := dec
  enc_last := enc_last
  dec_last := dec_last
  pre := none
  mc := mc
  imc := imc
  keygen_128 := keygen_128
  keygen_192 := keygen_192
  keygen_256 := keygen_256

end Aes.Table
