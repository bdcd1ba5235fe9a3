import Verif.Model.Target
/-
`store_to` again, one level lower: as a program on the memory of the process. In the rest of the model `dst: &mut [u8]` is a list that is
returned, so a call that panics returns nothing and what it had written before the panic is lost; a Rust caller that catches
the panic can see it, and so can another thread. Here a `&mut [u8]` is an address and a length, and a call is the sequence of the bytes it
writes, in order, together with how it ends. What the memory is after any number of them can be asked.
-/
namespace Aes.Store
open Rust

/-- The memory: what is at each address. -/
abbrev Memory := Nat → U8
/-- A `&mut [u8]`. -/
structure Slice where
  ptr : Nat
  len : Nat
/-- One byte written: its address and the new value. -/
abbrev Write := Nat × U8

/-- A computation that writes memory (none of those below reads it): how it ends, and what it has written by then. -/
structure W (α : Type) where
  result : M α
  writes : List Write
instance : Monad W where
  pure x := ⟨.ok x, []⟩
  bind p f := match p.result with
    | .ok x => ⟨(f x).result, p.writes ++ (f x).writes⟩
    | .error e => ⟨.error e, p.writes⟩

/-- The memory after one write. -/
def apply (m : Memory) (w : Write) : Memory := fun a => if a = w.1 then w.2 else m a
/-- The memory after some writes. -/
def applyAll (m : Memory) (l : List Write) : Memory := l.foldl apply m
/-- Running a computation on a memory: how it ends, and the memory it leaves behind. -/
def run {α : Type} (p : W α) (m : Memory) : M α × Memory := (p.result, applyAll m p.writes)

/-- The writes that put bytes at address `p` and on, first byte first. -/
def writesAt : Nat → List U8 → List Write
  | _, [] => []
  | p, b :: l => (p, b) :: writesAt (p + 1) l

/-- `assert!(b)`. -/
def assert (b : Bool) : W Unit := ⟨Rust.assert b, []⟩
/-- `s[i] = x`: panics when out of range. -/
def set (s : Slice) (i : Nat) (x : U8) : W Unit :=
  if i < s.len then ⟨.ok (), [(s.ptr + i, x)]⟩ else ⟨.error .panic, []⟩
/-- `&mut s[k..]`: panics when `k > s.len()`. -/
def drop (s : Slice) (k : Nat) : W Slice :=
  if k ≤ s.len then ⟨.ok ⟨s.ptr + k, s.len - k⟩, []⟩ else ⟨.error .panic, []⟩
/-- `&mut s[..k]`: panics when `k > s.len()`. -/
def take (s : Slice) (k : Nat) : W Slice :=
  if k ≤ s.len then ⟨.ok ⟨s.ptr, k⟩, []⟩ else ⟨.error .panic, []⟩
/-- `s.copy_from_slice(v)`: panics, before writing, when the lengths differ. (In which order it copies is not specified; the model goes
upwards.) -/
def copyFrom {n : Nat} (s : Slice) (v : Vector U8 n) : W Unit :=
  if s.len = n then ⟨.ok (), writesAt s.ptr v.toList⟩ else ⟨.error .panic, []⟩
/-- Writing `n` bytes through `s.as_mut_ptr()` (`vst1q_u8`, `_mm*_storeu_*`, `write_unaligned`): undefined behaviour when they
do not fit in the slice. (In which order, or whether at once, the machine does it is not specified; the model goes upwards.) -/
def rawWrite {n : Nat} (s : Slice) (v : Vector U8 n) : W Unit :=
  if n ≤ s.len then ⟨.ok (), writesAt s.ptr v.toList⟩ else ⟨.error .ub, []⟩

/-- src/aes_table_based.rs:18-23 `store_u32_be`. -/
def store_u32_be (slice : Slice) (num : U32) : W Unit := do
  set slice 0 ((num >>> 24).setWidth 8)
  set slice 1 ((num >>> 16).setWidth 8)
  set slice 2 ((num >>> 8).setWidth 8)
  set slice 3 (num.setWidth 8)

/-- `store_to` of a block type, on memory. -/
class StoreTo (T : Type) where
  store_to : T → Slice → W Unit

/-- src/aes_table_based.rs:95-101 `store_to`. -/
instance : StoreTo Table.Block where
  store_to self dst := do
    assert (dst.len ≥ 16)
    store_u32_be dst self.w0
    store_u32_be (← drop dst 4) self.w1
    store_u32_be (← drop dst 8) self.w2
    store_u32_be (← drop dst 12) self.w3
/-- src/aes_bitslice.rs:285-288 `store_to`. -/
instance (e : Endian) : StoreTo (Bitslice.Block e) where
  store_to self dst := do
    assert (dst.len ≥ 16)
    copyFrom (← take dst 16) (toNe e 16 self.val)
/-- src/aes_x86.rs:72-75 `store_to`. -/
instance : StoreTo X86.Block where
  store_to self dst := do
    assert (dst.len ≥ 16)
    rawWrite dst self.val
/-- src/aes_arm.rs:73-76 `store_to`. -/
instance (is32 : Bool) : StoreTo (Arm.Block is32) where
  store_to self dst := do
    assert (dst.len ≥ 16)
    rawWrite dst self.val
/-- src/aes_riscv64.rs:76-81 `store_to`. -/
instance : StoreTo Riscv64.Block where
  store_to self dst := do
    assert (dst.len ≥ 16)
    rawWrite dst (Riscv64.memory self)
/-- src/aes_riscv32.rs:107-112 `store_to`. -/
instance : StoreTo Riscv32.Block where
  store_to self dst := do
    assert (dst.len ≥ 16)
    rawWrite dst (Riscv32.memory self)
/-- src/aesdefault_x2.rs:84-88 `store_to`. -/
instance {B : Type} [StoreTo B] : StoreTo (DefaultX2.X2 B) where
  store_to self dst := do
    assert (dst.len ≥ 32)
    StoreTo.store_to self.f0 (← take dst 16)
    StoreTo.store_to self.f1 (← drop dst 16)
/-- src/aesdefault_x4.rs:107-111 `store_to`. -/
instance {X2 : Type} [StoreTo X2] : StoreTo (DefaultX4.X4 X2) where
  store_to self dst := do
    assert (dst.len ≥ 64)
    StoreTo.store_to self.f0 (← take dst 32)
    StoreTo.store_to self.f1 (← drop dst 32)
/-- src/aesni_x2.rs:98-101 `store_to`. -/
instance : StoreTo NiX2.X2 where
  store_to self dst := do
    assert (dst.len ≥ 32)
    rawWrite dst self.val
/-- src/aesni_x4.rs:134-137 `store_to`. -/
instance : StoreTo NiX4.X4 where
  store_to self dst := do
    assert (dst.len ≥ 64)
    rawWrite dst self.val

/-- `AesBlock::store_to` of the module that the target selects (src/lib.rs:44-92). -/
instance (t : Target) : StoreTo t.Block :=
  match t with
  | .table => inferInstanceAs (StoreTo Table.Block)
  | .bitslice e => inferInstanceAs (StoreTo (Bitslice.Block e))
  | .x86 | .x86Vaes | .x86Vaes512 => inferInstanceAs (StoreTo X86.Block)
  | .arm is32 => inferInstanceAs (StoreTo (Arm.Block is32))
  | .riscv64 => inferInstanceAs (StoreTo Riscv64.Block)
  | .riscv32 => inferInstanceAs (StoreTo Riscv32.Block)
/-- `AesBlockX2::store_to` (src/lib.rs:94-106). -/
instance (t : Target) : StoreTo t.X2 :=
  match t with
  | .table => inferInstanceAs (StoreTo (DefaultX2.X2 Table.Block))
  | .bitslice e => inferInstanceAs (StoreTo (DefaultX2.X2 (Bitslice.Block e)))
  | .x86 => inferInstanceAs (StoreTo (DefaultX2.X2 X86.Block))
  | .x86Vaes | .x86Vaes512 => inferInstanceAs (StoreTo NiX2.X2)
  | .arm is32 => inferInstanceAs (StoreTo (DefaultX2.X2 (Arm.Block is32)))
  | .riscv64 => inferInstanceAs (StoreTo (DefaultX2.X2 Riscv64.Block))
  | .riscv32 => inferInstanceAs (StoreTo (DefaultX2.X2 Riscv32.Block))
/-- `AesBlockX4::store_to` (src/lib.rs:108-121). -/
instance (t : Target) : StoreTo t.X4 :=
  match t with
  | .table => inferInstanceAs (StoreTo (DefaultX4.X4 (DefaultX2.X2 Table.Block)))
  | .bitslice e => inferInstanceAs (StoreTo (DefaultX4.X4 (DefaultX2.X2 (Bitslice.Block e))))
  | .x86 => inferInstanceAs (StoreTo (DefaultX4.X4 (DefaultX2.X2 X86.Block)))
  | .x86Vaes => inferInstanceAs (StoreTo (DefaultX4.X4 NiX2.X2))
  | .x86Vaes512 => inferInstanceAs (StoreTo NiX4.X4)
  | .arm is32 => inferInstanceAs (StoreTo (DefaultX4.X4 (DefaultX2.X2 (Arm.Block is32))))
  | .riscv64 => inferInstanceAs (StoreTo (DefaultX4.X4 (DefaultX2.X2 Riscv64.Block)))
  | .riscv32 => inferInstanceAs (StoreTo (DefaultX4.X4 (DefaultX2.X2 Riscv32.Block)))

end Aes.Store
