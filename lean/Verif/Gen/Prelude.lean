import Verif.Model.Profile
/-
What the generated files (Verif/Gen/*.lean, printed by tools/rust2lean.py from the text of /repo/src) use besides
Verif/Rust.lean. Hand-written. Nothing here is specific to a function of the crate.
-/
namespace RustSrc
open Rust

/-- The compile-time facts a function body can depend on: build profile, `target_endian`, `target_arch = "arm"`
(src/aes_bitslice.rs:199, src/aes_arm.rs:85-100, src/lib.rs:138). -/
class Cfg where
  profile : Aes.Profile
  endian : Endian
  is32 : Bool

/-- The memory representation of a type of `n` bytes in which every byte string is a valid value, for the casts of
src/aes_arm.rs:173-176, src/aes_bitslice.rs:341-342, src/aes_riscv32.rs:197-200 and the transmutes below. -/
class Layout (T : Type) (n : outParam Nat) where
  bytes : T → Vector U8 n
  ofBytes : Vector U8 n → T

section
variable [Cfg]

/-- Words of the key schedule, in the byte order of the target (src/aes_bitslice.rs:342). -/
instance : Layout U32 4 := ⟨toNe Cfg.endian 4, fromNe Cfg.endian 32⟩
/-- Doublewords (src/aes_riscv64.rs:72). -/
instance : Layout U64 8 := ⟨toNe Cfg.endian 8, fromNe Cfg.endian 64⟩
/-- `u128` (src/aes_x86.rs:68 and the other transmutes to `u128`). -/
instance : Layout U128 16 := ⟨toNe Cfg.endian 16, fromNe Cfg.endian 128⟩

end

/-- `[u8; n]` (and the SIMD registers, which are modelled as their memory; src/aes_x86.rs:68, src/aesni_x2.rs:94). -/
instance (priority := high) {n : Nat} : Layout (Vector U8 n) n := ⟨id, id⟩

/-- `[T; k]`: the elements one after the other (src/aes_arm.rs:173 `[AesBlock; 11]`). -/
instance {T : Type} {m k : Nat} [Layout T m] : Layout (Vector T k) (k * m) where
  bytes v := Vector.ofFn fun i =>
    have hm : 0 < m := by
      rcases Nat.eq_zero_or_pos m with h | h
      · subst h; exact absurd i.isLt (by simp)
      · exact h
    (Layout.bytes (v[i.val / m]'(by rw [Nat.div_lt_iff_lt_mul hm]; exact i.isLt)))[i.val % m]'(Nat.mod_lt _ hm)
  ofBytes b := Vector.ofFn fun i => Layout.ofBytes (Vector.ofFn fun j : Fin m => b[m * i.val + j.val]'(by
    have h1 := i.isLt
    have h2 := j.isLt
    calc m * i.val + j.val < m * i.val + m := by omega
      _ = m * (i.val + 1) := by rw [Nat.mul_succ]
      _ ≤ m * k := Nat.mul_le_mul_left m h1
      _ = k * m := Nat.mul_comm m k))

/-- Tuples in declaration order (see C49 for what depends on this), and the fields of `repr(C)` structs
(src/aes_riscv64.rs:219, src/aes_riscv32.rs:103). -/
instance {A B : Type} {n m : Nat} [Layout A n] [Layout B m] : Layout (A × B) (n + m) where
  bytes p := Layout.bytes p.1 ++ Layout.bytes p.2
  ofBytes b := (Layout.ofBytes (Vector.ofFn fun i : Fin n => b[i.val]),
    Layout.ofBytes (Vector.ofFn fun i : Fin m => b[n + i.val]))

/-- `mem::transmute` (rustc rejects different sizes), src/aes_riscv64.rs:219 and six more. -/
def transmute {A B : Type} {n m : Nat} [Layout A n] [Layout B m] (a : A) (h : n = m := by decide) : B :=
  Layout.ofBytes ((Layout.bytes a).cast h)

/-- `mem::zeroed`, src/aes_arm.rs:173 and the other key schedules. -/
def zeroed {A : Type} {n : Nat} [Layout A n] : A := Layout.ofBytes (Vector.replicate n 0#8)

/-- `slice::from_raw_parts_mut(x.as_mut_ptr().cast(), len)`, src/aes_bitslice.rs:342 and the other key schedules: the first `len` elements of type `B` in the memory of `x`;
undefined behaviour when they do not fit. -/
def castView {A B : Type} {n m : Nat} [Layout A n] [Layout B m] (x : A) (len : Nat) : M (Vector B len) :=
  if h : len * m ≤ n then
    .ok (Layout.ofBytes (Vector.ofFn fun i : Fin (len * m) => (Layout.bytes x)[i.val]))
  else .error .ub

/-- The value of `x` after its memory was changed through the view (src/aes_bitslice.rs:342-356). -/
def castBack {A B : Type} {n m len : Nat} [Layout A n] [Layout B m] (x : A) (view : Vector B len) : A :=
  Layout.ofBytes (Vector.ofFn fun i : Fin n =>
    if h : i.val < len * m then (Layout.bytes view)[i.val] else (Layout.bytes x)[i.val])

/-- A call on `&mut array[..]` (src/aes_x86.rs:213). -/
def withSlice {α : Type} {n : Nat} (v : Vector α n) (f : List α → M (List α)) : M (Vector α n) := do
  arrayTryFrom n (← f v.toList)

/-- `slice.fill(x)`, src/aes_x86.rs:213. -/
def fill {α : Type} (s : List α) (x : α) : M (List α) := .ok (List.replicate s.length x)

/-- `.enumerate()`, src/aes_arm.rs:178 and the other key schedules. -/
def enumerate {α : Type} (s : List α) : List (Nat × α) := s.zipIdx.map fun p => (p.2, p.1)

/-- The crate-private methods `pre_enc` and `pre_dec` of `AesBlock`, where the selected module has them
(src/aes_arm.rs:106-134, src/aes_riscv32.rs:124-158). -/
class HasPre (T : Type) where
  pre_enc : T → T → T
  pre_dec : T → T → T

/-- A hexadecimal digit, in either case (the `hex` crate, used by src/tests.rs:8-13). -/
def hexDigit (c : Char) : Option Nat :=
  if '0' ≤ c ∧ c ≤ '9' then some (c.toNat - '0'.toNat)
  else if 'a' ≤ c ∧ c ≤ 'f' then some (c.toNat - 'a'.toNat + 10)
  else if 'A' ≤ c ∧ c ≤ 'F' then some (c.toNat - 'A'.toNat + 10)
  else none
/-- Pairs of digits, high digit first; `none` for an odd length or a character that is no digit (src/tests.rs:8-13). -/
def hexBytes : List Char → Option (List U8)
  | [] => some []
  | [_] => none
  | a :: b :: cs => do
    let h ← hexDigit a
    let l ← hexDigit b
    let bs ← hexBytes cs
    pure (BitVec.ofNat 8 (16 * h + l) :: bs)
/-- `<[u8; n]>::from_hex` of the `hex` crate (src/tests.rs:8-13): fails for a wrong length or a character that is no digit.
Simplified: all errors are one. -/
def from_hex (n : Nat) (s : List Char) : Except Unit (Vector U8 n) :=
  match hexBytes s with
  | some bs => if h : bs.length = n then .ok ⟨bs.toArray, h⟩ else .error ()
  | none => .error ()

end RustSrc
