import Verif.Spec.Borrows
import Verif.Model.Store
/-
The functions of the crate that go through pointers (`store_to`, `try_from(&[u8])`, `new` from bytes, and the key expansions that view an array of blocks as
a slice of words), once more, as programs on the memory of Spec/Borrows.lean: a reference is an address, a length and a tag, taking,
passing and returning a reference makes a new one (a retag), and every access must be allowed by the borrow stacks.

A method call `x.f(..)` on a `&mut [u8]` reborrows `x` (first retag), a reference argument is retagged with a protector on entry, a returned
reference is retagged by the caller. `s[i] = x` on a slice is a bounds check and an access through `s` itself. Raw pointer arguments are
not retagged. Simplified: the library functions used (`as_mut_ptr`, `index_mut`, `copy_from_slice`, `from_raw_parts_mut`) are modelled
by what they do with the pointers, and only the pointer into `dst`, `value` or `expanded_keys` is followed.
-/
namespace Aes.Borrow
open Rust

/-- A `&mut [u8]` or `&[u8]`, or a reference to an array of bytes. -/
structure Ref where
  ptr : Nat
  len : Nat
  tag : Tag

/-- Fault. -/
def fail {α : Type} (f : Fault) : B α := fun _ => .error f
/-- `assert!(b)`. -/
def require (b : Bool) : B Unit := if b then pure () else fail .panic

/-- `&mut *r`, and the retag of a reference that a call returned. -/
def reborrow (r : Ref) : B Ref := do pure { r with tag := ← retag .unique none r.tag r.ptr r.len }
/-- A `&mut [u8]` argument on entry to the call `c`. -/
def argument (c : CallId) (r : Ref) : B Ref := do pure { r with tag := ← retag .unique (some c) r.tag r.ptr r.len }
/-- `r.as_mut_ptr()`: the tag of the raw pointer. -/
def as_mut_ptr (r : Ref) : B Tag := do
  let r ← reborrow r
  call fun c => do
    let r ← argument c r
    retag .sharedRW none r.tag r.ptr r.len
/-- `&mut r[lo..hi]` (`IndexMut::index_mut`): panics when out of range. -/
def index_mut (r : Ref) (lo hi : Nat) : B Ref := do
  let r ← reborrow r
  let s ← call fun c => do
    let r ← argument c r
    require (lo ≤ hi ∧ hi ≤ r.len)
    reborrow ⟨r.ptr + lo, hi - lo, r.tag⟩
  reborrow s
/-- `r.copy_from_slice(v)`: panics when the lengths differ. -/
def copy_from_slice {n : Nat} (r : Ref) (v : Vector U8 n) : B Unit := do
  let r ← reborrow r
  call fun c => do
    let r ← argument c r
    require (r.len = n)
    let p ← as_mut_ptr r
    write p r.ptr v
/-- `r[i] = x`. -/
def set (r : Ref) (i : Nat) (x : U8) : B Unit := do
  require (i < r.len)
  write r.tag (r.ptr + i) #v[x]
/-- `write_unaligned`, `vst1q_u8` and `_mm*_storeu_*` through `r.as_mut_ptr()`. -/
def raw_write {n : Nat} (r : Ref) (v : Vector U8 n) : B Unit := do
  let p ← as_mut_ptr r
  write p r.ptr v

/-! ### store_to -/

/-- src/aes_table_based.rs:18-23 `store_u32_be`. -/
def store_u32_be (slice : Ref) (num : U32) : B Unit := call fun c => do
  let slice ← argument c slice
  set slice 0 ((num >>> 24).setWidth 8)
  set slice 1 ((num >>> 16).setWidth 8)
  set slice 2 ((num >>> 8).setWidth 8)
  set slice 3 (num.setWidth 8)

/-- `store_to` of a block type. -/
class StoreTo (T : Type) where
  store_to : T → Ref → B Unit

/-- src/aes_table_based.rs:95-101 `store_to`. -/
instance : StoreTo Table.Block where
  store_to self dst := call fun c => do
    let dst ← argument c dst
    require (dst.len ≥ 16)
    store_u32_be (← reborrow dst) self.w0
    store_u32_be (← index_mut dst 4 dst.len) self.w1
    store_u32_be (← index_mut dst 8 dst.len) self.w2
    store_u32_be (← index_mut dst 12 dst.len) self.w3
/-- src/aes_bitslice.rs:285-288 `store_to`. -/
instance (e : Endian) : StoreTo (Bitslice.Block e) where
  store_to self dst := call fun c => do
    let dst ← argument c dst
    require (dst.len ≥ 16)
    copy_from_slice (← index_mut dst 0 16) (toNe e 16 self.val)
/-- src/aes_x86.rs:72-75 `store_to`. -/
instance : StoreTo X86.Block where
  store_to self dst := call fun c => do
    let dst ← argument c dst
    require (dst.len ≥ 16)
    raw_write dst self.val
/-- src/aes_arm.rs:73-76 `store_to`. -/
instance (is32 : Bool) : StoreTo (Arm.Block is32) where
  store_to self dst := call fun c => do
    let dst ← argument c dst
    require (dst.len ≥ 16)
    raw_write dst self.val
/-- src/aes_riscv64.rs:76-81 `store_to`. -/
instance : StoreTo Riscv64.Block where
  store_to self dst := call fun c => do
    let dst ← argument c dst
    require (dst.len ≥ 16)
    raw_write dst (Riscv64.memory self)
/-- src/aes_riscv32.rs:107-112 `store_to`. -/
instance : StoreTo Riscv32.Block where
  store_to self dst := call fun c => do
    let dst ← argument c dst
    require (dst.len ≥ 16)
    raw_write dst (Riscv32.memory self)
/-- src/aesdefault_x2.rs:84-88 `store_to`. -/
instance {T : Type} [StoreTo T] : StoreTo (DefaultX2.X2 T) where
  store_to self dst := call fun c => do
    let dst ← argument c dst
    require (dst.len ≥ 32)
    StoreTo.store_to self.f0 (← index_mut dst 0 16)
    StoreTo.store_to self.f1 (← index_mut dst 16 dst.len)
/-- src/aesdefault_x4.rs:107-111 `store_to`. -/
instance {T : Type} [StoreTo T] : StoreTo (DefaultX4.X4 T) where
  store_to self dst := call fun c => do
    let dst ← argument c dst
    require (dst.len ≥ 64)
    StoreTo.store_to self.f0 (← index_mut dst 0 32)
    StoreTo.store_to self.f1 (← index_mut dst 32 dst.len)
/-- src/aesni_x2.rs:98-101 `store_to`. -/
instance : StoreTo NiX2.X2 where
  store_to self dst := call fun c => do
    let dst ← argument c dst
    require (dst.len ≥ 32)
    raw_write dst self.val
/-- src/aesni_x4.rs:134-137 `store_to`. -/
instance : StoreTo NiX4.X4 where
  store_to self dst := call fun c => do
    let dst ← argument c dst
    require (dst.len ≥ 64)
    raw_write dst self.val

/-- `AesBlock::store_to` of the module that the target selects (src/lib.rs:44-92). -/
instance (t : Target) : StoreTo t.Block :=
  match t with
  | .table => inferInstanceAs (StoreTo Table.Block)
  | .bitslice e => inferInstanceAs (StoreTo (Bitslice.Block e))
  | .x86 | .x86Vaes | .x86Vaes512 => inferInstanceAs (StoreTo X86.Block)
  | .arm is32 => inferInstanceAs (StoreTo (Arm.Block is32))
  | .riscv64 => inferInstanceAs (StoreTo Riscv64.Block)
  | .riscv32 => inferInstanceAs (StoreTo Riscv32.Block)
/-- `AesBlockX2::store_to` (src/lib.rs:94-106). -/
instance (t : Target) : StoreTo t.X2 :=
  match t with
  | .table => inferInstanceAs (StoreTo (DefaultX2.X2 Table.Block))
  | .bitslice e => inferInstanceAs (StoreTo (DefaultX2.X2 (Bitslice.Block e)))
  | .x86 => inferInstanceAs (StoreTo (DefaultX2.X2 X86.Block))
  | .x86Vaes | .x86Vaes512 => inferInstanceAs (StoreTo NiX2.X2)
  | .arm is32 => inferInstanceAs (StoreTo (DefaultX2.X2 (Arm.Block is32)))
  | .riscv64 => inferInstanceAs (StoreTo (DefaultX2.X2 Riscv64.Block))
  | .riscv32 => inferInstanceAs (StoreTo (DefaultX2.X2 Riscv32.Block))
/-- `AesBlockX4::store_to` (src/lib.rs:108-121). -/
instance (t : Target) : StoreTo t.X4 :=
  match t with
  | .table => inferInstanceAs (StoreTo (DefaultX4.X4 (DefaultX2.X2 Table.Block)))
  | .bitslice e => inferInstanceAs (StoreTo (DefaultX4.X4 (DefaultX2.X2 (Bitslice.Block e))))
  | .x86 => inferInstanceAs (StoreTo (DefaultX4.X4 (DefaultX2.X2 X86.Block)))
  | .x86Vaes => inferInstanceAs (StoreTo (DefaultX4.X4 NiX2.X2))
  | .x86Vaes512 => inferInstanceAs (StoreTo NiX4.X4)
  | .arm is32 => inferInstanceAs (StoreTo (DefaultX4.X4 (DefaultX2.X2 (Arm.Block is32))))
  | .riscv64 => inferInstanceAs (StoreTo (DefaultX4.X4 (DefaultX2.X2 Riscv64.Block)))
  | .riscv32 => inferInstanceAs (StoreTo (DefaultX4.X4 (DefaultX2.X2 Riscv32.Block)))

/-- src/lib.rs:181-188 `impl From<T> for [u8; N]`: `store_to` into a local array at address `p`, which is returned. -/
def into_bytes {T : Type} {n : Nat} [AesVec T n] [StoreTo T] (p : Nat) (value : T) : B (Vector U8 n) := do
  let x ← allocate p (Vector.replicate n 0)
  StoreTo.store_to value (← reborrow ⟨p, n, x⟩)
  let v ← read x p n
  deallocate x p n
  pure v

/-! ### Reading through a pointer -/

/-- A `&[u8]` argument on entry to the call `c`. -/
def argument_shared (c : CallId) (r : Ref) : B Ref := do pure { r with tag := ← retag .sharedRO (some c) r.tag r.ptr r.len }
/-- `r.as_ptr()`: the tag of the raw pointer. (A `&[u8]` is copied, not reborrowed, when it is the receiver; the autoref of an array is the
`&value` that the caller takes.) -/
def as_ptr (r : Ref) : B Tag := call fun c => do
  let r ← argument_shared c r
  retag .sharedRO none r.tag r.ptr r.len
/-- src/lib.rs:135-140 `array_from_slice`: `*value.as_ptr().add(offset).cast()`. (The `debug_assert!` is in C58.) -/
def array_from_slice (n : Nat) (value : Ref) (offset : Nat) : B (Vector U8 n) := call fun c => do
  let value ← argument_shared c value
  let p ← as_ptr value
  read p (value.ptr + offset) n
/-- src/lib.rs:126-133 `try_from_slice`, up to the conversion of the array: `none` is `Err(value.len())`. -/
def try_from_slice (n : Nat) (value : Ref) : B (Option (Vector U8 n)) := call fun c => do
  let value ← argument_shared c value
  if value.len ≥ n then do pure (some (← array_from_slice n value 0)) else pure none
/-- src/lib.rs:172-179 `impl TryFrom<&[u8]>`; the conversion of the array (`.into()`, src/lib.rs:129) comes last. -/
def try_from {T : Type} {n : Nat} [AesVec T n] (value : Ref) : B (Except Nat T) := call fun c => do
  let value ← argument_shared c value
  match ← try_from_slice n value with
  | some v => do pure (.ok (← liftM (AesVec.from_bytes (T := T) v)))
  | none => pure (.error value.len)
/-- src/lib.rs:165-170 `impl From<&[u8; N]>`: `*value` is a read through the reference. -/
def from_ref {T : Type} {n : Nat} [AesVec T n] (value : Ref) : B T := call fun c => do
  let value ← argument_shared c value
  liftM (AesVec.from_bytes (T := T) (← read value.tag value.ptr n))
/-- src/lib.rs:190-209 `impl BitAndAssign` and the two others: `*self = op(*self, rhs)`, for a type whose values are kept as the bytes `enc x`. -/
def op_assign {T : Type} {n : Nat} (enc : T → Vector U8 n) (dec : Vector U8 n → T) (op : T → T → T) (self : Ref) (rhs : T) : B Unit := call fun c => do
  let self ← argument c self
  let x ← read self.tag self.ptr n
  write self.tag self.ptr (enc (op (dec x) rhs))
/-- A local array `value: [u8; N]` at address `p`, and the loads of `n` bytes at the given offsets through pointers into it:
`_mm_loadu_si128(value.as_ptr().cast())` and the like (src/aes_x86.rs:23-25, src/aes_arm.rs:24-26, src/aesni_x2.rs:25-27, src/aesni_x4.rs:26-28: offset 0). -/
def load_local {N : Nat} (p : Nat) (value : Vector U8 N) : B (Vector U8 N) := do
  let x ← allocate p value
  let r ← retag .sharedRO none x p N
  let q ← as_ptr ⟨p, N, r⟩
  let v ← read q p N
  deallocate x p N
  pure v
/-- `new` of the default wide types (src/aesdefault_x2.rs:76-81, src/aesdefault_x4.rs:99-104): the two halves of a local array, each by
`array_from_slice(&value, offset)`. -/
def load_halves (n p : Nat) (value : Vector U8 (n + n)) : B (Vector U8 n × Vector U8 n) := do
  let x ← allocate p value
  let a ← array_from_slice n ⟨p, n + n, ← retag .sharedRO none x p (n + n)⟩ 0
  let b ← array_from_slice n ⟨p, n + n, ← retag .sharedRO none x p (n + n)⟩ n
  deallocate x p (n + n)
  pure (a, b)

/-! ### Key expansion -/

/-- `slice::from_raw_parts_mut(expanded_keys.as_mut_ptr().cast(), len)` for the local variable `x` of `size` bytes at address `base`
(src/aes_bitslice.rs:342,360,385, src/aes_arm.rs:175-176,198-199,228-229, src/aes_riscv32.rs:199-200,219-220,246-247); the reference is made inside
the call and again when it is returned. -/
def columns_of (x : Tag) (base size len : Nat) : B Ref := do
  let p ← as_mut_ptr ⟨base, size, x⟩
  if base % 4 = 0 then do
    let s ← reborrow ⟨base, 4 * len, p⟩
    reborrow s
  else fail .ub

section
variable (e : Endian) (s : Ref)
/-- `columns[i]` as a value; `s.len` is in bytes. -/
def get (i : Nat) : B U32 :=
  if 4 * i + 4 ≤ s.len then do pure (fromNe e 32 (← read s.tag (s.ptr + 4 * i) 4)) else fail .panic
/-- `columns[i] = x`. -/
def put (i : Nat) (x : U32) : B Unit :=
  if 4 * i + 4 ≤ s.len then write s.tag (s.ptr + 4 * i) (toNe e 4 x) else fail .panic
/-- `columns[d] = columns[a] ^ columns[b]`. -/
def xorInto (d a b : Nat) : B Unit := do
  put e s d ((← get e s a) ^^^ (← get e s b))
/-- The loop over `key.chunks_exact(4).enumerate()`; src/aes_bitslice.rs:344-346 and the copies named in `Columns.load_columns`. -/
def load (key : List U8) : B Unit :=
  (chunksExact 4 key).zipIdx.forM fun (chunk, i) => do
    put e s i (fromNe e 32 (← liftM (arrayTryFrom 4 chunk)))

variable (first tail : U32 → U32 → U32 → U32) (fifth : U32 → U32 → U32)
/-- Body of the loop src/aes_bitslice.rs:348-353, src/aes_arm.rs:182-188, src/aes_riscv32.rs:206-211. -/
def step_128 (i : Nat) : B Unit := do
  put e s (i + 4) (first (← get e s (i + 0)) (← get e s (i + 3)) (← liftM (idx Columns.RCON (i / 4))))
  xorInto e s (i + 5) (i + 1) (i + 4)
  xorInto e s (i + 6) (i + 2) (i + 5)
  xorInto e s (i + 7) (i + 3) (i + 6)
/-- Body of the loop src/aes_bitslice.rs:366-373, src/aes_arm.rs:205-213, src/aes_riscv32.rs:226-233. -/
def step_192 (i : Nat) : B Unit := do
  put e s (i + 6) (first (← get e s (i + 0)) (← get e s (i + 5)) (← liftM (idx Columns.RCON (i / 6))))
  xorInto e s (i + 7) (i + 1) (i + 6)
  xorInto e s (i + 8) (i + 2) (i + 7)
  xorInto e s (i + 9) (i + 3) (i + 8)
  xorInto e s (i + 10) (i + 4) (i + 9)
  xorInto e s (i + 11) (i + 5) (i + 10)
/-- Body of the loop src/aes_bitslice.rs:391-400, src/aes_arm.rs:235-245, src/aes_riscv32.rs:253-262. -/
def step_256 (i : Nat) : B Unit := do
  put e s (i + 8) (first (← get e s (i + 0)) (← get e s (i + 7)) (← liftM (idx Columns.RCON (i / 8))))
  xorInto e s (i + 9) (i + 1) (i + 8)
  xorInto e s (i + 10) (i + 2) (i + 9)
  xorInto e s (i + 11) (i + 3) (i + 10)
  put e s (i + 12) (fifth (← get e s (i + 4)) (← get e s (i + 11)))
  xorInto e s (i + 13) (i + 5) (i + 12)
  xorInto e s (i + 14) (i + 6) (i + 13)
  xorInto e s (i + 15) (i + 7) (i + 14)

/-- The statements between the two uses of `expanded_keys`: src/aes_bitslice.rs:344-353, src/aes_arm.rs:178-188, src/aes_riscv32.rs:202-211. -/
def body_128 (key : Vector U8 16) : B Unit := do
  load e s key.toList
  (rangeStep 0 40 4).forM (step_128 e s first)
/-- src/aes_bitslice.rs:362-378, src/aes_arm.rs:201-218, src/aes_riscv32.rs:222-238. -/
def body_192 (key : Vector U8 24) : B Unit := do
  load e s key.toList
  (rangeStep 0 42 6).forM (step_192 e s first)
  put e s 48 (first (← get e s 42) (← get e s 47) (← liftM (idx Columns.RCON 7)))
  xorInto e s 49 43 48
  xorInto e s 50 44 49
  xorInto e s 51 45 50
/-- src/aes_bitslice.rs:387-405, src/aes_arm.rs:231-250, src/aes_riscv32.rs:249-267. -/
def body_256 (key : Vector U8 32) : B Unit := do
  load e s key.toList
  (rangeStep 0 48 8).forM (step_256 e s first fifth)
  put e s 56 (tail (← get e s 48) (← get e s 55) (← liftM (idx Columns.RCON 6)))
  xorInto e s 57 49 56
  xorInto e s 58 50 57
  xorInto e s 59 51 58
end

/-- The frame of the nine functions (src/aes_bitslice.rs:340-408, src/aes_arm.rs:171-254, src/aes_riscv32.rs:196-270): the local
`expanded_keys` of `N` zero blocks at address `base`, the slice of `len` words made of it, statements that use the slice, and the value of
`expanded_keys` (its bytes), read through its own name, as the result. -/
def expanding (N len base : Nat) (body : Ref → B Unit) : B (Vector U8 (16 * N)) := do
  let x ← allocate base (Vector.replicate (16 * N) 0)
  let s ← columns_of x base (16 * N) len
  body s
  let v ← read x base (16 * N)
  deallocate x base (16 * N)
  pure v
/-- src/aes_bitslice.rs:340-356, src/aes_arm.rs:171-192, src/aes_riscv32.rs:196-214. -/
def expand_128 (first : U32 → U32 → U32 → U32) (e : Endian) (base : Nat) (key : Vector U8 16) : B (Vector U8 (16 * 11)) :=
  expanding 11 44 base fun s => body_128 e s first key
/-- src/aes_bitslice.rs:358-381, src/aes_arm.rs:194-222, src/aes_riscv32.rs:216-241. -/
def expand_192 (first : U32 → U32 → U32 → U32) (e : Endian) (base : Nat) (key : Vector U8 24) : B (Vector U8 (16 * 13)) :=
  expanding 13 52 base fun s => body_192 e s first key
/-- src/aes_bitslice.rs:383-408, src/aes_arm.rs:224-254, src/aes_riscv32.rs:243-270. -/
def expand_256 (first tail : U32 → U32 → U32 → U32) (fifth : U32 → U32 → U32) (e : Endian) (base : Nat) (key : Vector U8 32) :
    B (Vector U8 (16 * 15)) :=
  expanding 15 60 base fun s => body_256 e s first tail fifth key


/-- The value of `expanded_keys` when it is returned: block `i` is made of the bytes `16 * i .. 16 * i + 15` of its memory. -/
def blocks {N : Nat} (v : Vector U8 (16 * N)) : Vector (Vector U8 16) N :=
  Vector.ofFn fun i => Vector.ofFn fun j => v[16 * i.val + j.val]

/-- src/aes_bitslice.rs:340-356; a block is the `u128` with these bytes in memory. -/
def bitslice_128 (e : Endian) (base : Nat) (key : Vector U8 16) : B (Vector (Bitslice.Block e) 11) := do
  pure ((blocks (← expand_128 Bitslice.first e base key)).map fun b => ⟨fromNe e 128 b⟩)
/-- src/aes_bitslice.rs:358-381. -/
def bitslice_192 (e : Endian) (base : Nat) (key : Vector U8 24) : B (Vector (Bitslice.Block e) 13) := do
  pure ((blocks (← expand_192 Bitslice.first e base key)).map fun b => ⟨fromNe e 128 b⟩)
/-- src/aes_bitslice.rs:383-408. -/
def bitslice_256 (e : Endian) (base : Nat) (key : Vector U8 32) : B (Vector (Bitslice.Block e) 15) := do
  pure ((blocks (← expand_256 Bitslice.first Bitslice.first Bitslice.fifth e base key)).map fun b => ⟨fromNe e 128 b⟩)
/-- src/aes_arm.rs:171-192; a block is the vector register with these bytes. -/
def arm_128 (is32 : Bool) (base : Nat) (key : Vector U8 16) : B (Vector (Arm.Block is32) 11) := do
  pure ((blocks (← expand_128 Arm.first .little base key)).map fun b => ⟨b⟩)
/-- src/aes_arm.rs:194-222. -/
def arm_192 (is32 : Bool) (base : Nat) (key : Vector U8 24) : B (Vector (Arm.Block is32) 13) := do
  pure ((blocks (← expand_192 Arm.first .little base key)).map fun b => ⟨b⟩)
/-- src/aes_arm.rs:224-254. -/
def arm_256 (is32 : Bool) (base : Nat) (key : Vector U8 32) : B (Vector (Arm.Block is32) 15) := do
  pure ((blocks (← expand_256 Arm.first Arm.first Arm.fifth .little base key)).map fun b => ⟨b⟩)
/-- src/aes_riscv32.rs:196-214; a block is the four `u32` with these bytes (`repr(C)`), as for `new`. -/
def riscv32_128 (base : Nat) (key : Vector U8 16) : B (Vector Riscv32.Block 11) := do
  liftM ((blocks (← expand_128 Riscv32.first .little base key)).mapM fun b => Riscv32.new b)
/-- src/aes_riscv32.rs:216-241. -/
def riscv32_192 (base : Nat) (key : Vector U8 24) : B (Vector Riscv32.Block 13) := do
  liftM ((blocks (← expand_192 Riscv32.first .little base key)).mapM fun b => Riscv32.new b)
/-- src/aes_riscv32.rs:243-270. -/
def riscv32_256 (base : Nat) (key : Vector U8 32) : B (Vector Riscv32.Block 15) := do
  liftM ((blocks (← expand_256 Riscv32.first_256 Riscv32.first Riscv32.fifth .little base key)).mapM fun b => Riscv32.new b)

end Aes.Borrow
