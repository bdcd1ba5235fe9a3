import Verif.Model.Lib
import Verif.Model.IsaRiscv
/-
Model of src/aes_riscv64.rs (Zkne + Zknd on RV64; RISC-V is little-endian).
-/
namespace Aes.Riscv64
open Rust IsaRiscv

/-- src/aes_riscv64.rs:21-24 `struct AesBlock(u64, u64)`, `repr(C, align(16))`, derived `PartialEq`. -/
structure Block where
  d0 : U64
  d1 : U64
deriving DecidableEq, Repr

/-- src/aes_riscv64.rs:71-73 `new`: `transmute([u8; 16])` into `repr(C)` `(u64, u64)`. -/
def new (value : Vector U8 16) : M Block :=
  .ok ⟨fromLe 64 (Vector.ofFn fun i : Fin 8 => value[i.val]),
    fromLe 64 (Vector.ofFn fun i : Fin 8 => value[8 + i.val])⟩
/-- src/aes_riscv64.rs:26-31 `From<[u8; 16]>`. -/
def from_bytes (value : Vector U8 16) : M Block := new value
/-- src/aes_riscv64.rs:33-40 `BitAnd`. -/
def bitand (self rhs : Block) : Block := ⟨self.d0 &&& rhs.d0, self.d1 &&& rhs.d1⟩
/-- src/aes_riscv64.rs:42-49 `BitOr`. -/
def bitor (self rhs : Block) : Block := ⟨self.d0 ||| rhs.d0, self.d1 ||| rhs.d1⟩
/-- src/aes_riscv64.rs:51-58 `BitXor`. -/
def bitxor (self rhs : Block) : Block := ⟨self.d0 ^^^ rhs.d0, self.d1 ^^^ rhs.d1⟩
/-- src/aes_riscv64.rs:60-67 `Not`. -/
def not (self : Block) : Block := ⟨~~~self.d0, ~~~self.d1⟩
/-- The memory of an `AesBlock` (`repr(C)`, little-endian `u64`s), as `write_unaligned` writes it. -/
def memory (self : Block) : Vector U8 16 := (toLe 8 self.d0 ++ toLe 8 self.d1 : Vector U8 (8 + 8))
/-- src/aes_riscv64.rs:76-81 `store_to`. -/
def store_to (self : Block) (dst : List U8) : M (List U8) := do
  assert (dst.length ≥ 16)
  rawWrite dst (memory self)
/-- src/aes_riscv64.rs:84-86 `zero`. -/
def zero : Block := ⟨0, 0⟩
/-- src/aes_riscv64.rs:90-92 `is_zero`. -/
def is_zero (self : Block) : Bool := (self.d0 ||| self.d1) == 0
/-- src/aes_riscv64.rs:96-103 `enc`. -/
def enc (self round_key : Block) : Block :=
  ⟨aes64esm self.d0 self.d1 ^^^ round_key.d0, aes64esm self.d1 self.d0 ^^^ round_key.d1⟩
/-- src/aes_riscv64.rs:107-114 `dec`. -/
def dec (self round_key : Block) : Block :=
  ⟨aes64dsm self.d0 self.d1 ^^^ round_key.d0, aes64dsm self.d1 self.d0 ^^^ round_key.d1⟩
/-- src/aes_riscv64.rs:118-125 `enc_last`. -/
def enc_last (self round_key : Block) : Block :=
  ⟨aes64es self.d0 self.d1 ^^^ round_key.d0, aes64es self.d1 self.d0 ^^^ round_key.d1⟩
/-- src/aes_riscv64.rs:129-136 `dec_last`. -/
def dec_last (self round_key : Block) : Block :=
  ⟨aes64ds self.d0 self.d1 ^^^ round_key.d0, aes64ds self.d1 self.d0 ^^^ round_key.d1⟩
/-- src/aes_riscv64.rs:140-145 `mc`. -/
def mc (self : Block) : Block :=
  let (tmp0, tmp1) := (aes64ds self.d0 self.d1, aes64ds self.d1 self.d0)
  ⟨aes64esm tmp0 tmp1, aes64esm tmp1 tmp0⟩
/-- src/aes_riscv64.rs:149-151 `imc`. -/
def imc (self : Block) : Block := ⟨aes64im self.d0, aes64im self.d1⟩

/-- src/aes_riscv64.rs:155-158 `keyexp_128`. -/
def keyexp_128 (RNUM : Nat) (prev : Block) : Block :=
  let tmp := aes64ks2 (aes64ks1i prev.d1 RNUM) prev.d0
  ⟨tmp, aes64ks2 tmp prev.d1⟩
/-- src/aes_riscv64.rs:161-166 `keyexp_192`. -/
def keyexp_192 (RNUM : Nat) (state : U64 × U64 × U64) : U64 × U64 × U64 :=
  let s0 := aes64ks2 (aes64ks1i state.2.2 RNUM) state.1
  let s1 := aes64ks2 s0 state.2.1
  let s2 := aes64ks2 s1 state.2.2
  (s0, s1, s2)
/-- src/aes_riscv64.rs:169-172 `keyexp_256_1`. -/
def keyexp_256_1 (RNUM : Nat) (prev0 prev1 : Block) : Block :=
  let tmp := aes64ks2 (aes64ks1i prev1.d1 RNUM) prev0.d0
  ⟨tmp, aes64ks2 tmp prev0.d1⟩
/-- src/aes_riscv64.rs:175-178 `keyexp_256_2`. -/
def keyexp_256_2 (prev0 prev1 : Block) : Block :=
  let tmp := aes64ks2 (aes64ks1i prev1.d1 10) prev0.d0
  ⟨tmp, aes64ks2 tmp prev0.d1⟩

/-- src/aes_riscv64.rs:180-198 `keygen_128`. -/
def keygen_128 (key : Vector U8 16) : M (Vector Block 11) := do
  let key0 ← from_bytes key
  let key1 := keyexp_128 0 key0
  let key2 := keyexp_128 1 key1
  let key3 := keyexp_128 2 key2
  let key4 := keyexp_128 3 key3
  let key5 := keyexp_128 4 key4
  let key6 := keyexp_128 5 key5
  let key7 := keyexp_128 6 key6
  let key8 := keyexp_128 7 key7
  let key9 := keyexp_128 8 key8
  let key10 := keyexp_128 9 key9
  pure #v[key0, key1, key2, key3, key4, key5, key6, key7, key8, key9, key10]

/-- `u64::from_le_bytes(key[lo..lo+8].try_into().unwrap())`, src/aes_riscv64.rs:204-206. -/
def load_u64 (key : List U8) (lo : Nat) : M U64 := do
  let s ← sliceFrom (← sliceTo key (lo + 8)) lo
  pure (fromLe 64 (← arrayTryFrom 8 s))

/-- src/aes_riscv64.rs:201-223 `keygen_192`. The final `mem::transmute` of a nested tuple of `u64`s is
modelled with the tuple laid out in declaration order (Rust leaves tuple layout unspecified; for tuples of
equal `u64`s rustc uses declaration order — an assumption recorded in DESIGN.md). -/
def keygen_192 (key : Vector U8 24) : M (Vector Block 13) := do
  let state0 := (← load_u64 key.toList 0, ← load_u64 key.toList 8, ← load_u64 key.toList 16)
  let state1 := keyexp_192 0 state0
  let state2 := keyexp_192 1 state1
  let state3 := keyexp_192 2 state2
  let state4 := keyexp_192 3 state3
  let state5 := keyexp_192 4 state4
  let state6 := keyexp_192 5 state5
  let state7 := keyexp_192 6 state6
  let state24 := aes64ks2 (aes64ks1i state7.2.2 7) state7.1
  let state25 := aes64ks2 state24 state7.2.1
  pure #v[⟨state0.1, state0.2.1⟩, ⟨state0.2.2, state1.1⟩, ⟨state1.2.1, state1.2.2⟩,
    ⟨state2.1, state2.2.1⟩, ⟨state2.2.2, state3.1⟩, ⟨state3.2.1, state3.2.2⟩,
    ⟨state4.1, state4.2.1⟩, ⟨state4.2.2, state5.1⟩, ⟨state5.2.1, state5.2.2⟩,
    ⟨state6.1, state6.2.1⟩, ⟨state6.2.2, state7.1⟩, ⟨state7.2.1, state7.2.2⟩,
    ⟨state24, state25⟩]

/-- src/aes_riscv64.rs:225-249 `keygen_256`. -/
def keygen_256 (key : Vector U8 32) : M (Vector Block 15) := do
  let key0 ← unwrap (← try_from_slice 16 from_bytes (← sliceTo key.toList 16))
  let key1 ← unwrap (← try_from_slice 16 from_bytes (← sliceFrom key.toList 16))
  let key2 := keyexp_256_1 0 key0 key1
  let key3 := keyexp_256_2 key1 key2
  let key4 := keyexp_256_1 1 key2 key3
  let key5 := keyexp_256_2 key3 key4
  let key6 := keyexp_256_1 2 key4 key5
  let key7 := keyexp_256_2 key5 key6
  let key8 := keyexp_256_1 3 key6 key7
  let key9 := keyexp_256_2 key7 key8
  let key10 := keyexp_256_1 4 key8 key9
  let key11 := keyexp_256_2 key9 key10
  let key12 := keyexp_256_1 5 key10 key11
  let key13 := keyexp_256_2 key11 key12
  let key14 := keyexp_256_1 6 key12 key13
  pure #v[key0, key1, key2, key3, key4, key5, key6, key7, key8, key9, key10, key11, key12, key13, key14]

/-- The API of the module (no `pre_enc`/`pre_dec` in src/aes_riscv64.rs). -/
instance : AesBlock Block where
  new := new
  from_bytes := from_bytes
  store_to := store_to
  zero := zero
  is_zero := is_zero
  eq := fun a b => decide (a = b)
  bitand := bitand
  bitor := bitor
  bitxor := bitxor
  not := not
  enc := enc
  dec := dec
  enc_last := enc_last
  dec_last := dec_last
  pre := none
  mc := mc
  imc := imc
  keygen_128 := keygen_128
  keygen_192 := keygen_192
  keygen_256 := keygen_256

end Aes.Riscv64
