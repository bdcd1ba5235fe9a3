import Verif.Proofs.Store
import Verif.Properties.Data
/-!
C50: what `store_to` does to memory. In `Verif/Model/Store.lean` a `&mut [u8]` is an address and a length, and the memory is there
after the call whether it returns or panics.
-/
namespace Aes
open Rust AesSpec AesVec Target

/-- `store_to` of the block type of the given width, on memory. -/
instance (t : Target) (w : Width) : Store.StoreTo (t.Vec w) :=
  match w with
  | .x1 => inferInstanceAs (Store.StoreTo t.Block)
  | .x2 => inferInstanceAs (Store.StoreTo t.X2)
  | .x4 => inferInstanceAs (Store.StoreTo t.X4)
instance (t : Target) (w : Width) : Store.LawfulStore (t.Vec w) :=
  match w with
  | .x1 => inferInstanceAs (Store.LawfulStore t.Block)
  | .x2 => inferInstanceAs (Store.LawfulStore t.X2)
  | .x4 => inferInstanceAs (Store.LawfulStore t.X4)

/-- C50: a `store_to` that panics has written nothing: a slice that is too short, at any address, leaves all of memory as it was. -/
theorem C50_panic_writes_nothing (t : Target) (w : Width) (x : t.Vec w) (s : Store.Slice) (m : Store.Memory) (h : s.len < w.size) :
    Store.run (Store.StoreTo.store_to x s) m = (.error .panic, m) := by
  rw [Store.LawfulStore.short x s h]; rfl

/-- C50: otherwise it returns, the bytes of the value are at the address of the slice, and every other byte of memory is as it was
(also those of the slice behind the value). -/
theorem C50_writes_exactly (t : Target) (w : Width) (x : t.Vec w) (s : Store.Slice) (m : Store.Memory) (h : w.size ≤ s.len) :
    ∃ (m' : Store.Memory) (b : Bytes w.size), Store.run (Store.StoreTo.store_to x s) m = (.ok (), m') ∧ into_bytes x = .ok b ∧
      (∀ i, (hi : i < w.size) → m' (s.ptr + i) = b[i]) ∧ (∀ a, a < s.ptr ∨ s.ptr + w.size ≤ a → m' a = m a) := by
  refine ⟨_, _, by rw [Store.LawfulStore.ok x s h]; rfl, into_bytes_eq x, ?_, ?_⟩
  · intro i hi
    show Store.applyAll m (Store.writesAt _ _) _ = _
    rw [Store.applyAll_writesAt, if_pos (by simp only [Vector.length_toList]; omega), show s.ptr + i - s.ptr = i by omega,
      List.getD_eq_getElem?_getD, List.getElem?_eq_getElem (by simpa using hi)]
    simp
  · intro a ha
    show Store.applyAll m (Store.writesAt _ _) _ = _
    rw [Store.applyAll_writesAt, if_neg (by simp only [Vector.length_toList]; omega)]

/-- C50, byte by byte: each byte of the destination is written exactly once, upwards, and nothing else is. So a `store_to` that is cut short
after `k` of its writes (the thread is stopped, the process is killed) has put the first `k` bytes of the value in place and touched
nothing else. -/
theorem C50_cut_short (t : Target) (w : Width) (x : t.Vec w) (s : Store.Slice) (m : Store.Memory) (h : w.size ≤ s.len) :
    ∃ b : Bytes w.size, into_bytes x = .ok b ∧ (Store.StoreTo.store_to x s).writes.length = w.size ∧
      ∀ (k a : Nat), Store.applyAll m ((Store.StoreTo.store_to x s).writes.take k) a =
        if h : s.ptr ≤ a ∧ a < s.ptr + min k w.size then b[a - s.ptr] else m a := by
  refine ⟨_, into_bytes_eq x, by rw [Store.LawfulStore.ok x s h]; simp [Store.length_writesAt], ?_⟩
  intro k a
  rw [Store.LawfulStore.ok x s h]
  show Store.applyAll m ((Store.writesAt _ _).take k) a = _
  rw [Store.writesAt_take, Store.applyAll_writesAt]
  simp only [List.length_take, Vector.length_toList]
  split
  · next h =>
    rw [List.getD_eq_getElem?_getD, List.getElem?_take_of_lt (by omega), List.getElem?_eq_getElem (by simp; omega)]
    simp
  · rfl

/-- The bytes of a slice. -/
def contents (m : Store.Memory) (s : Store.Slice) : List U8 := (List.range s.len).map fun i => m (s.ptr + i)

/-- C50: the memory-level `store_to` and the one of the rest of the model, which takes and returns the contents of the slice (C21), are the
same function: both return, or both panic. -/
theorem C50_refines (t : Target) (w : Width) (x : t.Vec w) (s : Store.Slice) (m : Store.Memory) :
    match Store.run (Store.StoreTo.store_to x s) m with
    | (.ok (), m') => store_to x (contents m s) = .ok (contents m' s)
    | (.error f, _) => store_to x (contents m s) = .error f := by
  have hl : (contents m s).length = s.len := by simp [contents]
  by_cases h : w.size ≤ s.len
  · rw [Store.LawfulStore.ok x s h]
    show store_to x (contents m s) = .ok (contents (Store.applyAll m (Store.writesAt _ _)) s)
    rw [LawfulVec.store_to_ok x _ (by omega)]
    refine congrArg Except.ok (List.ext_getElem ?_ ?_)
    · simp [contents]; omega
    · intro i h1 h2
      have hi : i < s.len := by simpa [contents] using h2
      simp only [contents, List.getElem_map, List.getElem_range, Store.applyAll_writesAt, Vector.length_toList]
      by_cases hw : i < w.size
      · rw [List.getElem_append_left (by simpa using hw), if_pos (by omega), show s.ptr + i - s.ptr = i by omega,
          List.getD_eq_getElem?_getD, List.getElem?_eq_getElem (by simpa using hw)]
        rfl
      · rw [List.getElem_append_right (by simpa using hw), if_neg (by omega)]
        simp only [List.getElem_drop, List.getElem_map, List.getElem_range, Vector.length_toList]
        congr 2; omega
  · rw [Store.LawfulStore.short x s (by omega)]
    show store_to x (contents m s) = .error .panic
    exact LawfulVec.store_to_short x _ (by omega)

/-- Concrete: four blocks of table-based code stored at address 100 of a memory full of 7s; too short by one byte, and exact. -/
example : (∃ x : Target.table.Vec .x4, ∃ m' : Store.Memory, Store.run (Store.StoreTo.store_to x ⟨100, 63⟩) (fun _ => 7) = (.error .panic, m') ∧
    m' 100 = 7) := ⟨zero, _, C50_panic_writes_nothing .table .x4 zero ⟨100, 63⟩ _ (by decide), rfl⟩
example : (∃ x : Target.table.Vec .x4, ∃ m' : Store.Memory, Store.run (Store.StoreTo.store_to x ⟨100, 64⟩) (fun _ => 7) = (.ok (), m') ∧
    m' 99 = 7 ∧ m' 100 = 0 ∧ m' 163 = 0 ∧ m' 164 = 7) := by
  obtain ⟨m', b, h, hb, h1, h2⟩ := C50_writes_exactly .table .x4 zero ⟨100, 64⟩ (fun _ => 7) (by decide)
  rw [show b = zeroB 64 from Except.ok.inj (hb.symm.trans (by rw [into_bytes_eq, LawfulVec.view_zero]; rfl))] at h1
  exact ⟨zero, m', h, h2 99 (by decide), h1 0 (by decide), h1 63 (by decide), h2 164 (by decide)⟩
end Aes
