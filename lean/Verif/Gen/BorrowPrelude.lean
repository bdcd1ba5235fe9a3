import Verif.Gen.Prelude
import Verif.Model.Borrow
/-
What the translation of the functions that go through references and pointers (Gen/Borrow.lean) is written in: pointers, and the library
functions and intrinsics on them, by what they do on the memory of Spec/Borrows.lean. Hand-written. The other steps (`argument`, `reborrow`,
`index_mut`, `copy_from_slice`, `set`, `get`, `put`) are those of Model/Borrow.lean.
-/
namespace RustSrc.Ptr
open Rust Aes.Borrow

/-- `&x` of a local variable (src/aesdefault_x2.rs:78). -/
def borrow (r : Ref) : B Ref := do pure { r with tag := ← retag .sharedRO none r.tag r.ptr r.len }
/-- `x.as_mut_ptr()` (src/aes_x86.rs:74); `cast` changes nothing here. -/
def mut_ptr (r : Ref) : B Ref := do pure { r with tag := ← as_mut_ptr r }
/-- `x.as_ptr()` (src/aes_x86.rs:24). -/
def const_ptr (r : Ref) : B Ref := do pure { r with tag := ← as_ptr r }
/-- `p.add(n)` on a pointer to bytes (src/lib.rs:139). -/
def _root_.Aes.Borrow.Ref.add (p : Ref) (n : Nat) : Ref := { p with ptr := p.ptr + n }
/-- `*p` for a pointer to `[u8; n]` (src/lib.rs:139). -/
def read_bytes (p : Ref) (n : Nat) : B (Vector U8 n) := read p.tag p.ptr n
/-- `slice::from_raw_parts_mut::<u32>(p, len)`: the reference is made inside the call and again when it is returned (src/aes_bitslice.rs:342,
src/aes_arm.rs:176, src/aes_riscv32.rs:200). -/
def from_raw_parts_mut (p : Ref) (len : Nat) : B Ref :=
  if p.ptr % 4 = 0 then do
    let s ← reborrow ⟨p.ptr, 4 * len, p.tag⟩
    reborrow s
  else fail .ub
/-- `p.write_unaligned(x)` (src/aes_riscv64.rs:79, src/aes_riscv32.rs:110). -/
def write_unaligned {T : Type} {n : Nat} [Layout T n] (p : Ref) (x : T) : B Unit := write p.tag p.ptr (Layout.bytes x)
/-- `*r` for a reference to a `T` (src/lib.rs:193). -/
def load {T : Type} {n : Nat} [Layout T n] (r : Ref) : B T := do pure (Layout.ofBytes (← read r.tag r.ptr n))
/-- `*r = x` (src/lib.rs:193). -/
def store {T : Type} {n : Nat} [Layout T n] (r : Ref) (x : T) : B Unit := write r.tag r.ptr (Layout.bytes x)

/-- src/aes_x86.rs:24. -/
def _mm_loadu_si128 (p : Ref) : B (Vector U8 16) := read p.tag p.ptr 16
/-- src/aesni_x2.rs:26. -/
def _mm256_loadu_si256 (p : Ref) : B (Vector U8 32) := read p.tag p.ptr 32
/-- src/aesni_x4.rs:27. -/
def _mm512_loadu_si512 (p : Ref) : B (Vector U8 64) := read p.tag p.ptr 64
/-- src/aes_arm.rs:25. -/
def vld1q_u8 (p : Ref) : B (Vector U8 16) := read p.tag p.ptr 16
/-- src/aes_x86.rs:74. -/
def _mm_storeu_si128 (p : Ref) (v : Vector U8 16) : B Unit := write p.tag p.ptr v
/-- src/aesni_x2.rs:100. -/
def _mm256_storeu_si256 (p : Ref) (v : Vector U8 32) : B Unit := write p.tag p.ptr v
/-- src/aesni_x4.rs:136. -/
def _mm512_storeu_si512 (p : Ref) (v : Vector U8 64) : B Unit := write p.tag p.ptr v
/-- src/aes_arm.rs:75. -/
def vst1q_u8 (p : Ref) (v : Vector U8 16) : B Unit := write p.tag p.ptr v

end RustSrc.Ptr
