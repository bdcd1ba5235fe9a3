import Verif.Model.Columns
import Verif.Model.IsaRiscv
/-
Model of src/aes_riscv32.rs (Zkne + Zknd on RV32; RISC-V is little-endian). The code is modelled as it
is: see Verif/Properties/Riscv32.lean for what it does and does not satisfy.
-/
namespace Aes.Riscv32
open Rust IsaRiscv

/-- src/aes_riscv32.rs:4-7 `struct AesBlock(u32, u32, u32, u32)`, `repr(C, align(16))`, derived `PartialEq`. -/
structure Block where
  w0 : U32
  w1 : U32
  w2 : U32
  w3 : U32
deriving DecidableEq, Repr

/-- src/aes_riscv32.rs:22-32 `inner` of the macro `outer!`, for the instruction `name`. -/
def inner (name : U32 → U32 → Nat → U32) (t0 t1 t2 t3 rk : U32) : U32 :=
  let value := rk
  let value := name value t0 0
  let value := name value t1 1
  let value := name value t2 2
  let value := name value t3 3
  value
/-- src/aes_riscv32.rs:20-40 macro `outer!`. -/
def outer (name : U32 → U32 → Nat → U32) (msg rk : Block) : Block :=
  ⟨inner name msg.w0 msg.w1 msg.w2 msg.w3 rk.w0,
   inner name msg.w1 msg.w2 msg.w3 msg.w0 rk.w1,
   inner name msg.w2 msg.w3 msg.w0 msg.w1 rk.w2,
   inner name msg.w3 msg.w0 msg.w1 msg.w2 rk.w3⟩

/-- src/aes_riscv32.rs:102-104 `new`: `transmute([u8; 16])` into `repr(C)` `(u32, u32, u32, u32)`. -/
def new (value : Vector U8 16) : M Block :=
  .ok ⟨fromLe 32 (Vector.ofFn fun i : Fin 4 => value[i.val]),
    fromLe 32 (Vector.ofFn fun i : Fin 4 => value[4 + i.val]),
    fromLe 32 (Vector.ofFn fun i : Fin 4 => value[8 + i.val]),
    fromLe 32 (Vector.ofFn fun i : Fin 4 => value[12 + i.val])⟩
/-- src/aes_riscv32.rs:42-47 `From<[u8; 16]>`. -/
def from_bytes (value : Vector U8 16) : M Block := new value
/-- src/aes_riscv32.rs:49-61 `BitAnd`. -/
def bitand (self rhs : Block) : Block :=
  ⟨self.w0 &&& rhs.w0, self.w1 &&& rhs.w1, self.w2 &&& rhs.w2, self.w3 &&& rhs.w3⟩
/-- src/aes_riscv32.rs:63-75 `BitOr`. -/
def bitor (self rhs : Block) : Block :=
  ⟨self.w0 ||| rhs.w0, self.w1 ||| rhs.w1, self.w2 ||| rhs.w2, self.w3 ||| rhs.w3⟩
/-- src/aes_riscv32.rs:77-89 `BitXor`. -/
def bitxor (self rhs : Block) : Block :=
  ⟨self.w0 ^^^ rhs.w0, self.w1 ^^^ rhs.w1, self.w2 ^^^ rhs.w2, self.w3 ^^^ rhs.w3⟩
/-- src/aes_riscv32.rs:91-98 `Not`. -/
def not (self : Block) : Block := ⟨~~~self.w0, ~~~self.w1, ~~~self.w2, ~~~self.w3⟩
/-- The memory of an `AesBlock` (`repr(C)`, little-endian `u32`s), as `write_unaligned` writes it. -/
def memory (self : Block) : Vector U8 16 :=
  ((toLe 4 self.w0 ++ toLe 4 self.w1) ++ (toLe 4 self.w2 ++ toLe 4 self.w3) : Vector U8 ((4 + 4) + (4 + 4)))
/-- src/aes_riscv32.rs:107-112 `store_to`. -/
def store_to (self : Block) (dst : List U8) : M (List U8) := do
  assert (dst.length ≥ 16)
  rawWrite dst (memory self)
/-- src/aes_riscv32.rs:115-117 `zero`. -/
def zero : Block := ⟨0, 0, 0, 0⟩
/-- src/aes_riscv32.rs:121-123 `is_zero`. -/
def is_zero (self : Block) : Bool := (self.w0 ||| self.w1 ||| self.w2 ||| self.w3) == 0
/-- src/aes_riscv32.rs:126-128 `pre_enc`. -/
def pre_enc (self round_key : Block) : Block := outer aes32esmi self round_key
/-- src/aes_riscv32.rs:132-134 `enc`. -/
def enc (self round_key : Block) : Block := bitxor (pre_enc self zero) round_key
/-- src/aes_riscv32.rs:137-139 `pre_enc_last`. -/
def pre_enc_last (self round_key : Block) : Block := outer aes32esi self round_key
/-- src/aes_riscv32.rs:143-145 `enc_last`. -/
def enc_last (self round_key : Block) : Block := bitxor (pre_enc_last self zero) round_key
/-- src/aes_riscv32.rs:148-150 `pre_dec`. -/
def pre_dec (self round_key : Block) : Block := outer aes32dsmi self round_key
/-- src/aes_riscv32.rs:154-156 `dec`. -/
def dec (self round_key : Block) : Block := bitxor (pre_dec self zero) round_key
/-- src/aes_riscv32.rs:159-161 `pre_dec_last`. -/
def pre_dec_last (self round_key : Block) : Block := outer aes32dsi self round_key
/-- src/aes_riscv32.rs:165-167 `dec_last`. -/
def dec_last (self round_key : Block) : Block := bitxor (pre_dec_last self zero) round_key
/-- src/aes_riscv32.rs:171-173 `mc`. -/
def mc (self : Block) : Block := enc (pre_dec_last self zero) zero
/-- src/aes_riscv32.rs:177-179 `imc`. -/
def imc (self : Block) : Block := dec (pre_enc_last self zero) zero

/-- src/aes_riscv32.rs:185-194 `sub_word`. -/
def sub_word (xor word : U32) : U32 :=
  let value := xor
  let value := aes32esi value word 0
  let value := aes32esi value word 1
  let value := aes32esi value word 2
  let value := aes32esi value word 3
  value

/-- src/aes_riscv32.rs:207 (227, 235, 264): `sub_word(old ^ rcon, prev)`, without RotWord. -/
def first (old prev rcon : U32) : U32 := sub_word (old ^^^ rcon) prev
/-- src/aes_riscv32.rs:254: `sub_word(old ^ rcon, prev.rotate_right(8))`, in the 256-bit loop only. -/
def first_256 (old prev rcon : U32) : U32 := sub_word (old ^^^ rcon) (prev.rotateRight 8)
/-- src/aes_riscv32.rs:258. -/
def fifth (old prev : U32) : U32 := sub_word old prev

/-- The `[AesBlock; N]` whose memory the columns are (src/aes_riscv32.rs:197-200,213 etc.). -/
def as_blocks {N : Nat} (columns : Vector U32 (4 * N)) : M (Vector Block N) :=
  (Columns.block_bytes .little columns).mapM fun b => new b

/-- src/aes_riscv32.rs:196-214 `keygen_128`. -/
def keygen_128 (key : Vector U8 16) : M (Vector Block 11) := do
  as_blocks (N := 11) (← Columns.columns_128 first .little key)
/-- src/aes_riscv32.rs:216-241 `keygen_192`. -/
def keygen_192 (key : Vector U8 24) : M (Vector Block 13) := do
  as_blocks (N := 13) (← Columns.columns_192 first .little key)
/-- src/aes_riscv32.rs:243-270 `keygen_256`. -/
def keygen_256 (key : Vector U8 32) : M (Vector Block 15) := do
  as_blocks (N := 15) (← Columns.columns_256 first_256 fifth first .little key)

/-- The API of the module. -/
instance : AesBlock Block where
  new := new
  from_bytes := from_bytes
  store_to := store_to
  zero := zero
  is_zero := is_zero
  eq := fun a b => decide (a = b)
  bitand := bitand
  bitor := bitor
  bitxor := bitxor
  not := not
  enc := enc
  dec := dec
  enc_last := enc_last
  dec_last := dec_last
  pre := some ⟨pre_enc, pre_dec⟩
  mc := mc
  imc := imc
  keygen_128 := keygen_128
  keygen_192 := keygen_192
  keygen_256 := keygen_256

end Aes.Riscv32
