import Verif.Model.Lib
/-
The key-expansion loops that src/aes_bitslice.rs:340-408, src/aes_arm.rs:171-254 and
src/aes_riscv32.rs:196-270 share: the three files have the same text except for the expression that
computes the first word of a group (`first old prev rcon`) and, for 256-bit keys, the fifth
(`fifth old prev`); these expressions are parameters here and are supplied by the three models.
`columns` is the `[u32; 4*N]` view of the round keys.
-/
namespace Aes.Columns
open Rust

/-- `RCON`: src/aes_bitslice.rs:338, src/aes_arm.rs:169, src/aes_riscv32.rs:182 (the same array). -/
def RCON : Vector U32 10 :=
  #v[0x01#32, 0x02#32, 0x04#32, 0x08#32, 0x10#32, 0x20#32, 0x40#32, 0x80#32, 0x1b#32, 0x36#32]

/-- src/aes_bitslice.rs:344-346 (and 362-364, 387-389; src/aes_arm.rs:178-180, 201-203, 231-233;
src/aes_riscv32.rs:202-204, 222-224, 249-251): the loop over `key.chunks_exact(4).enumerate()`
storing `u32::from_ne_bytes(chunk.try_into().unwrap())` into `columns[i]`. -/
def load_columns (e : Endian) {n : Nat} (key : List U8) (columns : Vector U32 n) : M (Vector U32 n) :=
  (chunksExact 4 key).zipIdx.foldlM (fun columns (chunk, i) => do
    upd columns i (fromNe e 32 (← arrayTryFrom 4 chunk))) columns

/-- Reading the memory of the columns as 16-byte blocks: block `i` has the bytes of columns
`4i..4i+3` (src/aes_bitslice.rs:342,355, src/aes_arm.rs:175-176, src/aes_riscv32.rs:199-200 and the
192/256-bit versions: both views share the memory). -/
def block_bytes (e : Endian) {N : Nat} (columns : Vector U32 (4 * N)) : Vector (Vector U8 16) N :=
  Vector.ofFn fun i => Vector.ofFn fun j : Fin 16 =>
    (toNe e 4 (columns[4 * i.val + j.val / 4]))[j.val % 4]

section
variable (first : U32 → U32 → U32 → U32) (fifth : U32 → U32 → U32)

/-- Body of the loop src/aes_bitslice.rs:348-353, src/aes_arm.rs:182-188, src/aes_riscv32.rs:206-211. -/
def step_128 (columns : Vector U32 44) (i : Nat) : M (Vector U32 44) := do
  let columns ← upd columns (i + 4)
    (first (← idx columns (i + 0)) (← idx columns (i + 3)) (← idx RCON (i / 4)))
  let columns ← upd columns (i + 5) ((← idx columns (i + 1)) ^^^ (← idx columns (i + 4)))
  let columns ← upd columns (i + 6) ((← idx columns (i + 2)) ^^^ (← idx columns (i + 5)))
  let columns ← upd columns (i + 7) ((← idx columns (i + 3)) ^^^ (← idx columns (i + 6)))
  pure columns

/-- src/aes_bitslice.rs:340-356, src/aes_arm.rs:171-192, src/aes_riscv32.rs:196-214. -/
def columns_128 (e : Endian) (key : Vector U8 16) : M (Vector U32 44) := do
  let columns : Vector U32 44 := Vector.replicate 44 0
  let columns ← load_columns e key.toList columns
  (rangeStep 0 40 4).foldlM (step_128 first) columns

/-- Body of the loop src/aes_bitslice.rs:366-373, src/aes_arm.rs:205-213, src/aes_riscv32.rs:226-233. -/
def step_192 (columns : Vector U32 52) (i : Nat) : M (Vector U32 52) := do
  let columns ← upd columns (i + 6)
    (first (← idx columns (i + 0)) (← idx columns (i + 5)) (← idx RCON (i / 6)))
  let columns ← upd columns (i + 7) ((← idx columns (i + 1)) ^^^ (← idx columns (i + 6)))
  let columns ← upd columns (i + 8) ((← idx columns (i + 2)) ^^^ (← idx columns (i + 7)))
  let columns ← upd columns (i + 9) ((← idx columns (i + 3)) ^^^ (← idx columns (i + 8)))
  let columns ← upd columns (i + 10) ((← idx columns (i + 4)) ^^^ (← idx columns (i + 9)))
  let columns ← upd columns (i + 11) ((← idx columns (i + 5)) ^^^ (← idx columns (i + 10)))
  pure columns

/-- src/aes_bitslice.rs:358-381, src/aes_arm.rs:194-222, src/aes_riscv32.rs:216-241. -/
def columns_192 (e : Endian) (key : Vector U8 24) : M (Vector U32 52) := do
  let columns : Vector U32 52 := Vector.replicate 52 0
  let columns ← load_columns e key.toList columns
  let columns ← (rangeStep 0 42 6).foldlM (step_192 first) columns
  let columns ← upd columns 48 (first (← idx columns 42) (← idx columns 47) (← idx RCON 7))
  let columns ← upd columns 49 ((← idx columns 43) ^^^ (← idx columns 48))
  let columns ← upd columns 50 ((← idx columns 44) ^^^ (← idx columns 49))
  let columns ← upd columns 51 ((← idx columns 45) ^^^ (← idx columns 50))
  pure columns

/-- Body of the loop src/aes_bitslice.rs:391-400, src/aes_arm.rs:235-245, src/aes_riscv32.rs:253-262. -/
def step_256 (columns : Vector U32 60) (i : Nat) : M (Vector U32 60) := do
  let columns ← upd columns (i + 8)
    (first (← idx columns (i + 0)) (← idx columns (i + 7)) (← idx RCON (i / 8)))
  let columns ← upd columns (i + 9) ((← idx columns (i + 1)) ^^^ (← idx columns (i + 8)))
  let columns ← upd columns (i + 10) ((← idx columns (i + 2)) ^^^ (← idx columns (i + 9)))
  let columns ← upd columns (i + 11) ((← idx columns (i + 3)) ^^^ (← idx columns (i + 10)))
  let columns ← upd columns (i + 12) (fifth (← idx columns (i + 4)) (← idx columns (i + 11)))
  let columns ← upd columns (i + 13) ((← idx columns (i + 5)) ^^^ (← idx columns (i + 12)))
  let columns ← upd columns (i + 14) ((← idx columns (i + 6)) ^^^ (← idx columns (i + 13)))
  let columns ← upd columns (i + 15) ((← idx columns (i + 7)) ^^^ (← idx columns (i + 14)))
  pure columns

/-- src/aes_bitslice.rs:383-408, src/aes_arm.rs:224-254, src/aes_riscv32.rs:243-270; `tail` is the
expression of the last group (`columns[56]`), which differs from `first` on riscv32. -/
def columns_256 (tail : U32 → U32 → U32 → U32) (e : Endian) (key : Vector U8 32) :
    M (Vector U32 60) := do
  let columns : Vector U32 60 := Vector.replicate 60 0
  let columns ← load_columns e key.toList columns
  let columns ← (rangeStep 0 48 8).foldlM (step_256 first fifth) columns
  let columns ← upd columns 56 (tail (← idx columns 48) (← idx columns 55) (← idx RCON 6))
  let columns ← upd columns 57 ((← idx columns 49) ^^^ (← idx columns 56))
  let columns ← upd columns 58 ((← idx columns 50) ^^^ (← idx columns 57))
  let columns ← upd columns 59 ((← idx columns 51) ^^^ (← idx columns 58))
  pure columns

end
end Aes.Columns
