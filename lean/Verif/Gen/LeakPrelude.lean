import Verif.Gen.Prelude
import Verif.Model.LeakLib
/-
What the leakage translation of the source text (Verif/Gen/Leak*.lean) is written in, besides the vocabulary of
Verif/Model/Leak.lean and the method tables `LVec`, `LBlock` of Verif/Model/LeakLib.lean. Hand-written.
-/
namespace RustSrc.Leak
open Rust Aes.Leak

/-- No event: arithmetic on lengths and loop counters (and its overflow checks), debug assertions about them
(src/lib.rs:138), views of memory under another type (src/aes_bitslice.rs:342). -/
def quiet {α : Type} (m : M α) : L α := ⟨[], m⟩

/-- `T[x as u8 as usize]` with 256 entries: the index is visible, no bounds check is needed (src/aes_table_based.rs:357-371). -/
def lookup {α : Type} (a : Arr) (table : Vector α 256) (i : U8) : L α :=
  ⟨[.read a i.toNat], .ok (table[i.toNat]'(BitVec.isLt _))⟩

/-- A call on `&mut array[..]` (src/aes_x86.rs:213). -/
def withSlice {α : Type} {n : Nat} (v : Vector α n) (f : List α → L (List α)) : L (Vector α n) := do
  quiet (Rust.arrayTryFrom n (← f v.toList))

/-- `slice.fill(x)`, src/aes_x86.rs:213. -/
def fill {α : Type} (s : List α) (x : α) : L (List α) := ⟨writes s.length, .ok (List.replicate s.length x)⟩

/-- The crate-private methods `pre_enc` and `pre_dec` of `AesBlock`, where the selected module has them
(src/aes_arm.rs:106-134, src/aes_riscv32.rs:124-158). -/
class LHasPre (T : Type) where
  pre_enc : T → T → L T
  pre_dec : T → T → L T

end RustSrc.Leak
