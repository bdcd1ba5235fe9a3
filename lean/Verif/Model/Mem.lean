import Verif.Model.Target
/-
The key expansions of src/aes_bitslice.rs, src/aes_arm.rs and src/aes_riscv32.rs again, one level lower: as programs on raw
memory. `Model/Columns.lean` treats the `&mut [u32]` that `slice::from_raw_parts_mut` makes of the memory of
`[AesBlock; N]` as an array of its own; here the array of blocks is an allocation of bytes at some address, the slice is an
address and a length, and each `columns[i]` is a bounds check followed by a four-byte access to the memory, which is undefined
behaviour outside the allocation or at a misaligned address.
-/
namespace Aes.Mem
open Rust

/-- The memory of a local variable: its address and its bytes. -/
structure Alloc where
  base : Nat
  bytes : List U8
/-- A `&mut [u32]`: its address and its length. -/
structure RawSlice where
  ptr : Nat
  len : Nat

/-- May `n` bytes at address `p` be accessed? -/
def Alloc.covers (m : Alloc) (p n : Nat) : Prop := m.base ≤ p ∧ p + n ≤ m.base + m.bytes.length
instance (m : Alloc) (p n : Nat) : Decidable (m.covers p n) := inferInstanceAs (Decidable (_ ∧ _))

/-- Reading a `u32` at address `p`: undefined behaviour unless it lies in the allocation and is aligned (to 4 bytes, the alignment
of `u32` on all the targets in question). -/
def readU32 (e : Endian) (m : Alloc) (p : Nat) : M U32 :=
  if m.covers p 4 ∧ p % 4 = 0 then do pure (fromNe e 32 (← rawRead m.bytes (p - m.base) 4)) else .error .ub
/-- Writing a `u32` at address `p`. -/
def writeU32 (e : Endian) (m : Alloc) (p : Nat) (x : U32) : M Alloc :=
  if m.covers p 4 ∧ p % 4 = 0 then
    .ok { m with bytes := m.bytes.take (p - m.base) ++ (toNe e 4 x).toList ++ m.bytes.drop (p - m.base + 4) }
  else .error .ub

/-- `unsafe { mem::zeroed() }` for a local `[AesBlock; n]` that the compiler placed at address `base`
(src/aes_bitslice.rs:341,359,384, src/aes_arm.rs:173,196,226, src/aes_riscv32.rs:197,217,244); a block has 16 bytes. -/
def zeroed (base n : Nat) : Alloc := ⟨base, List.replicate (16 * n) 0⟩
/-- `slice::from_raw_parts_mut(expanded_keys.as_mut_ptr().cast(), len)` (src/aes_bitslice.rs:342,360,385,
src/aes_arm.rs:175-176,198-199,228-229, src/aes_riscv32.rs:199-200,219-220,246-247): undefined behaviour unless the pointer is
aligned and the whole slice lies in the allocation. -/
def from_raw_parts_mut (m : Alloc) (len : Nat) : M RawSlice :=
  if m.covers m.base (4 * len) ∧ m.base % 4 = 0 then .ok ⟨m.base, len⟩ else .error .ub

/-- `columns[i]` as a value. -/
def get (e : Endian) (s : RawSlice) (m : Alloc) (i : Nat) : M U32 :=
  if i < s.len then readU32 e m (s.ptr + 4 * i) else .error .panic
/-- `columns[i] = x`. -/
def put (e : Endian) (s : RawSlice) (m : Alloc) (i : Nat) (x : U32) : M Alloc :=
  if i < s.len then writeU32 e m (s.ptr + 4 * i) x else .error .panic

/-- The loop over `key.chunks_exact(4).enumerate()`; src/aes_bitslice.rs:344-346 and the copies named in
`Columns.load_columns`. -/
def load (e : Endian) (s : RawSlice) (key : List U8) (m : Alloc) : M Alloc :=
  (chunksExact 4 key).zipIdx.foldlM (fun m (chunk, i) => do
    put e s m i (fromNe e 32 (← arrayTryFrom 4 chunk))) m

/-- `columns[d] = columns[a] ^ columns[b]`, the commonest statement of the three functions. -/
def xorInto (e : Endian) (s : RawSlice) (m : Alloc) (d a b : Nat) : M Alloc := do
  put e s m d ((← get e s m a) ^^^ (← get e s m b))

section
variable (first tail : U32 → U32 → U32 → U32) (fifth : U32 → U32 → U32) (e : Endian) (s : RawSlice)

/-- Body of the loop src/aes_bitslice.rs:348-353, src/aes_arm.rs:182-188, src/aes_riscv32.rs:206-211. -/
def step_128 (m : Alloc) (i : Nat) : M Alloc := do
  let m ← put e s m (i + 4) (first (← get e s m (i + 0)) (← get e s m (i + 3)) (← idx Columns.RCON (i / 4)))
  let m ← xorInto e s m (i + 5) (i + 1) (i + 4)
  let m ← xorInto e s m (i + 6) (i + 2) (i + 5)
  xorInto e s m (i + 7) (i + 3) (i + 6)
/-- Body of the loop src/aes_bitslice.rs:366-373, src/aes_arm.rs:205-213, src/aes_riscv32.rs:226-233. -/
def step_192 (m : Alloc) (i : Nat) : M Alloc := do
  let m ← put e s m (i + 6) (first (← get e s m (i + 0)) (← get e s m (i + 5)) (← idx Columns.RCON (i / 6)))
  let m ← xorInto e s m (i + 7) (i + 1) (i + 6)
  let m ← xorInto e s m (i + 8) (i + 2) (i + 7)
  let m ← xorInto e s m (i + 9) (i + 3) (i + 8)
  let m ← xorInto e s m (i + 10) (i + 4) (i + 9)
  xorInto e s m (i + 11) (i + 5) (i + 10)
/-- Body of the loop src/aes_bitslice.rs:391-400, src/aes_arm.rs:235-245, src/aes_riscv32.rs:253-262. -/
def step_256 (m : Alloc) (i : Nat) : M Alloc := do
  let m ← put e s m (i + 8) (first (← get e s m (i + 0)) (← get e s m (i + 7)) (← idx Columns.RCON (i / 8)))
  let m ← xorInto e s m (i + 9) (i + 1) (i + 8)
  let m ← xorInto e s m (i + 10) (i + 2) (i + 9)
  let m ← xorInto e s m (i + 11) (i + 3) (i + 10)
  let m ← put e s m (i + 12) (fifth (← get e s m (i + 4)) (← get e s m (i + 11)))
  let m ← xorInto e s m (i + 13) (i + 5) (i + 12)
  let m ← xorInto e s m (i + 14) (i + 6) (i + 13)
  xorInto e s m (i + 15) (i + 7) (i + 14)
end

section
variable (first tail : U32 → U32 → U32 → U32) (fifth : U32 → U32 → U32) (e : Endian)

/-- src/aes_bitslice.rs:340-356, src/aes_arm.rs:171-192, src/aes_riscv32.rs:196-214: the memory of `expanded_keys` at the end, if
the compiler placed it at address `base`. -/
def expand_128 (base : Nat) (key : Vector U8 16) : M Alloc := do
  let m := zeroed base 11
  let s ← from_raw_parts_mut m 44
  let m ← load e s key.toList m
  (rangeStep 0 40 4).foldlM (step_128 first e s) m
/-- src/aes_bitslice.rs:358-381, src/aes_arm.rs:194-222, src/aes_riscv32.rs:216-241. -/
def expand_192 (base : Nat) (key : Vector U8 24) : M Alloc := do
  let m := zeroed base 13
  let s ← from_raw_parts_mut m 52
  let m ← load e s key.toList m
  let m ← (rangeStep 0 42 6).foldlM (step_192 first e s) m
  let m ← put e s m 48 (first (← get e s m 42) (← get e s m 47) (← idx Columns.RCON 7))
  let m ← xorInto e s m 49 43 48
  let m ← xorInto e s m 50 44 49
  xorInto e s m 51 45 50
/-- src/aes_bitslice.rs:383-408, src/aes_arm.rs:224-254, src/aes_riscv32.rs:243-270. -/
def expand_256 (base : Nat) (key : Vector U8 32) : M Alloc := do
  let m := zeroed base 15
  let s ← from_raw_parts_mut m 60
  let m ← load e s key.toList m
  let m ← (rangeStep 0 48 8).foldlM (step_256 first fifth e s) m
  let m ← put e s m 56 (tail (← get e s m 48) (← get e s m 55) (← idx Columns.RCON 6))
  let m ← xorInto e s m 57 49 56
  let m ← xorInto e s m 58 50 57
  xorInto e s m 59 51 58
end

/-- The value of `expanded_keys` when it is returned: block `i` is made of the bytes `16 * i .. 16 * i + 15` of its memory. -/
def blocks (m : Alloc) (n : Nat) : Vector (Vector U8 16) n :=
  Vector.ofFn fun i => Vector.ofFn fun j => m.bytes.getD (16 * i.val + j.val) 0

/-! ### The three backends -/

/-- src/aes_bitslice.rs:340-356; a block is the `u128` with these bytes in memory. -/
def bitslice_128 (e : Endian) (base : Nat) (key : Vector U8 16) : M (Vector (Bitslice.Block e) 11) := do
  pure ((blocks (← expand_128 Bitslice.first e base key) 11).map fun b => ⟨fromNe e 128 b⟩)
/-- src/aes_bitslice.rs:358-381. -/
def bitslice_192 (e : Endian) (base : Nat) (key : Vector U8 24) : M (Vector (Bitslice.Block e) 13) := do
  pure ((blocks (← expand_192 Bitslice.first e base key) 13).map fun b => ⟨fromNe e 128 b⟩)
/-- src/aes_bitslice.rs:383-408. -/
def bitslice_256 (e : Endian) (base : Nat) (key : Vector U8 32) : M (Vector (Bitslice.Block e) 15) := do
  pure ((blocks (← expand_256 Bitslice.first Bitslice.first Bitslice.fifth e base key) 15).map fun b => ⟨fromNe e 128 b⟩)
/-- src/aes_arm.rs:171-192; a block is the vector register with these bytes. -/
def arm_128 (is32 : Bool) (base : Nat) (key : Vector U8 16) : M (Vector (Arm.Block is32) 11) := do
  pure ((blocks (← expand_128 Arm.first .little base key) 11).map fun b => ⟨b⟩)
/-- src/aes_arm.rs:194-222. -/
def arm_192 (is32 : Bool) (base : Nat) (key : Vector U8 24) : M (Vector (Arm.Block is32) 13) := do
  pure ((blocks (← expand_192 Arm.first .little base key) 13).map fun b => ⟨b⟩)
/-- src/aes_arm.rs:224-254. -/
def arm_256 (is32 : Bool) (base : Nat) (key : Vector U8 32) : M (Vector (Arm.Block is32) 15) := do
  pure ((blocks (← expand_256 Arm.first Arm.first Arm.fifth .little base key) 15).map fun b => ⟨b⟩)
/-- src/aes_riscv32.rs:196-214; a block is the four `u32` with these bytes (`repr(C)`), as for `new`. -/
def riscv32_128 (base : Nat) (key : Vector U8 16) : M (Vector Riscv32.Block 11) := do
  (blocks (← expand_128 Riscv32.first .little base key) 11).mapM fun b => Riscv32.new b
/-- src/aes_riscv32.rs:216-241. -/
def riscv32_192 (base : Nat) (key : Vector U8 24) : M (Vector Riscv32.Block 13) := do
  (blocks (← expand_192 Riscv32.first .little base key) 13).mapM fun b => Riscv32.new b
/-- src/aes_riscv32.rs:243-270. -/
def riscv32_256 (base : Nat) (key : Vector U8 32) : M (Vector Riscv32.Block 15) := do
  (blocks (← expand_256 Riscv32.first_256 Riscv32.first Riscv32.fifth .little base key) 15).mapM fun b => Riscv32.new b

end Aes.Mem
