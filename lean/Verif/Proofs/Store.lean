import Verif.Model.Store
import Verif.Proofs.Target
/-! `store_to` on memory: proofs. -/
namespace Aes.Store
open Rust AesSpec

/-- The laws of `store_to` on memory: it writes the bytes of the value upwards from the start of the slice, or, if they do not fit, panics
before writing anything. -/
class LawfulStore (T : Type) {n : outParam Nat} [AesVec T n] [LawfulVec T] [StoreTo T] : Prop where
  ok : ∀ (x : T) (s : Slice), n ≤ s.len → StoreTo.store_to x s = ⟨.ok (), writesAt s.ptr (view x).toList⟩
  short : ∀ (x : T) (s : Slice), s.len < n → StoreTo.store_to x s = ⟨.error .panic, []⟩

theorem bind_ok {α β : Type} {p : W α} {f : α → W β} {l : List Write} {x : α} (h : p = ⟨.ok x, l⟩) :
    (p >>= f) = ⟨(f x).result, l ++ (f x).writes⟩ := by subst h; rfl
theorem bind_ok_nil {α β : Type} {p : W α} {f : α → W β} {x : α} (h : p = ⟨.ok x, []⟩) : (p >>= f) = f x := by subst h; rfl
theorem bind_error {α β : Type} {p : W α} {f : α → W β} {l : List Write} {e : Fault} (h : p = ⟨.error e, l⟩) :
    (p >>= f) = ⟨.error e, l⟩ := by subst h; rfl

theorem assert_ok {k n : Nat} (h : n ≤ k) : assert (k ≥ n) = ⟨.ok (), []⟩ := by
  unfold assert Rust.assert; rw [if_pos (by simpa using h)]
theorem assert_short {k n : Nat} (h : k < n) : assert (k ≥ n) = ⟨.error .panic, []⟩ := by
  unfold assert Rust.assert; rw [if_neg (by simpa using h)]
theorem take_ok {s : Slice} {k : Nat} (h : k ≤ s.len) : take s k = ⟨.ok ⟨s.ptr, k⟩, []⟩ := if_pos h
theorem drop_ok {s : Slice} {k : Nat} (h : k ≤ s.len) : drop s k = ⟨.ok ⟨s.ptr + k, s.len - k⟩, []⟩ := if_pos h
theorem set_ok {s : Slice} {i : Nat} (h : i < s.len) (x : U8) : set s i x = ⟨.ok (), [(s.ptr + i, x)]⟩ := if_pos h

theorem writesAt_append (p : Nat) (a b : List U8) : writesAt p (a ++ b) = writesAt p a ++ writesAt (p + a.length) b := by
  induction a generalizing p with
  | nil => rfl
  | cons x a ih =>
    simp only [List.cons_append, writesAt, ih, List.length_cons]
    rw [show p + 1 + a.length = p + (a.length + 1) by omega]

theorem store_raw {n : Nat} (s : Slice) (v : Vector U8 n) (h : n ≤ s.len) :
    (do assert (s.len ≥ n); rawWrite s v : W Unit) = ⟨.ok (), writesAt s.ptr v.toList⟩ := by
  rw [bind_ok_nil (assert_ok h)]; exact if_pos h

theorem store_word (s : Slice) (w : U32) (h : 4 ≤ s.len) :
    store_u32_be s w = ⟨.ok (), writesAt s.ptr (toBe 4 w).toList⟩ := by
  unfold store_u32_be
  have e : toBe 4 w = #v[(w >>> 24).setWidth 8, (w >>> 16).setWidth 8, (w >>> 8).setWidth 8, w.setWidth 8] := by
    apply Vector.ext
    intro i hi
    simp only [toBe, toLe]
    obtain rfl | rfl | rfl | rfl : i = 0 ∨ i = 1 ∨ i = 2 ∨ i = 3 := by omega
    all_goals (apply BitVec.eq_of_toNat_eq; simp)
  rw [e, bind_ok (set_ok (by omega) _), bind_ok (set_ok (by omega) _), bind_ok (set_ok (by omega) _), set_ok (by omega)]
  rfl

instance : LawfulStore Table.Block where
  ok x s h := by
    show (do assert _; _ : W Unit) = _
    rw [bind_ok_nil (assert_ok h), bind_ok (store_word _ _ (by omega)), bind_ok_nil (drop_ok (by omega)),
      bind_ok (store_word _ _ (by show 4 ≤ s.len - 4; omega)), bind_ok_nil (drop_ok (by omega)),
      bind_ok (store_word _ _ (by show 4 ≤ s.len - 8; omega)), bind_ok_nil (drop_ok (by omega)),
      store_word _ _ (by show 4 ≤ s.len - 12; omega)]
    show _ = W.mk _ (writesAt s.ptr (Table.view' x).toList)
    rw [Table.view'_toList]
    simp only [writesAt_append, List.append_assoc, Vector.length_toList]
  short _ _ h := bind_error (assert_short h)
instance (e : Endian) : LawfulStore (Bitslice.Block e) where
  ok x s h := by
    show (do assert _; _ : W Unit) = _
    rw [bind_ok_nil (assert_ok h), bind_ok_nil (take_ok h)]
    exact if_pos rfl
  short _ _ h := bind_error (assert_short h)
instance : LawfulStore X86.Block where
  ok x s h := store_raw s x.val h
  short _ _ h := bind_error (assert_short h)
instance (is32 : Bool) : LawfulStore (Arm.Block is32) where
  ok x s h := store_raw s x.val h
  short _ _ h := bind_error (assert_short h)
instance : LawfulStore Riscv64.Block where
  ok x s h := store_raw s (Riscv64.memory x) h
  short _ _ h := bind_error (assert_short h)
instance : LawfulStore Riscv32.Block where
  ok x s h := by
    have := store_raw s (Riscv32.memory x) h
    rw [Riscv32.memory_eq] at this
    exact this
  short _ _ h := bind_error (assert_short h)

theorem store_halves {U : Type} {n : Nat} [AesVec U n] [LawfulVec U] [StoreTo U] [LawfulStore U] (a b : U) (s : Slice)
    (h : n + n ≤ s.len) :
    (do assert (s.len ≥ n + n); StoreTo.store_to a (← take s n); StoreTo.store_to b (← drop s n) : W Unit) =
      ⟨.ok (), writesAt s.ptr (view a ++ view b).toList⟩ := by
  rw [bind_ok_nil (assert_ok h), bind_ok_nil (take_ok (by omega)), bind_ok (LawfulStore.ok a _ (Nat.le_refl _)),
    bind_ok_nil (drop_ok (by omega)), LawfulStore.ok b _ (by show n ≤ s.len - n; omega), Vector.toList_append, writesAt_append,
    Vector.length_toList]

instance {B : Type} [AesBlock B] [LawfulVec B] [StoreTo B] [LawfulStore B] : LawfulStore (DefaultX2.X2 B) where
  ok x s h := store_halves x.f0 x.f1 s h
  short _ _ h := bind_error (assert_short h)
instance {B X2 : Type} [AesBlock B] [LawfulVec B] [AesBlockX2 B X2] [LawfulVec X2] [StoreTo X2] [LawfulStore X2] :
    LawfulStore (DefaultX4.X4 X2) where
  ok x s h := store_halves x.f0 x.f1 s h
  short _ _ h := bind_error (assert_short h)
instance : LawfulStore NiX2.X2 where
  ok x s h := store_raw s x.val h
  short _ _ h := bind_error (assert_short h)
instance : LawfulStore NiX4.X4 where
  ok x s h := store_raw s x.val h
  short _ _ h := bind_error (assert_short h)

instance (t : Target) : LawfulStore t.Block :=
  match t with
  | .table => inferInstanceAs (LawfulStore Table.Block)
  | .bitslice e => inferInstanceAs (LawfulStore (Bitslice.Block e))
  | .x86 | .x86Vaes | .x86Vaes512 => inferInstanceAs (LawfulStore X86.Block)
  | .arm is32 => inferInstanceAs (LawfulStore (Arm.Block is32))
  | .riscv64 => inferInstanceAs (LawfulStore Riscv64.Block)
  | .riscv32 => inferInstanceAs (LawfulStore Riscv32.Block)
instance (t : Target) : LawfulStore t.X2 :=
  match t with
  | .table => inferInstanceAs (LawfulStore (DefaultX2.X2 Table.Block))
  | .bitslice e => inferInstanceAs (LawfulStore (DefaultX2.X2 (Bitslice.Block e)))
  | .x86 => inferInstanceAs (LawfulStore (DefaultX2.X2 X86.Block))
  | .x86Vaes | .x86Vaes512 => inferInstanceAs (LawfulStore NiX2.X2)
  | .arm is32 => inferInstanceAs (LawfulStore (DefaultX2.X2 (Arm.Block is32)))
  | .riscv64 => inferInstanceAs (LawfulStore (DefaultX2.X2 Riscv64.Block))
  | .riscv32 => inferInstanceAs (LawfulStore (DefaultX2.X2 Riscv32.Block))
instance (t : Target) : LawfulStore t.X4 :=
  match t with
  | .table => inferInstanceAs (LawfulStore (DefaultX4.X4 (DefaultX2.X2 Table.Block)))
  | .bitslice e => inferInstanceAs (LawfulStore (DefaultX4.X4 (DefaultX2.X2 (Bitslice.Block e))))
  | .x86 => inferInstanceAs (LawfulStore (DefaultX4.X4 (DefaultX2.X2 X86.Block)))
  | .x86Vaes => inferInstanceAs (LawfulStore (DefaultX4.X4 NiX2.X2))
  | .x86Vaes512 => inferInstanceAs (LawfulStore NiX4.X4)
  | .arm is32 => inferInstanceAs (LawfulStore (DefaultX4.X4 (DefaultX2.X2 (Arm.Block is32))))
  | .riscv64 => inferInstanceAs (LawfulStore (DefaultX4.X4 (DefaultX2.X2 Riscv64.Block)))
  | .riscv32 => inferInstanceAs (LawfulStore (DefaultX4.X4 (DefaultX2.X2 Riscv32.Block)))

/-! ### What a sequence of writes does to memory -/

theorem applyAll_append (m : Memory) (a b : List Write) : applyAll m (a ++ b) = applyAll (applyAll m a) b := List.foldl_append
/-- The last write to an address counts. -/
theorem applyAll_not_mem (m : Memory) (l : List Write) (a : Nat) (h : ∀ w ∈ l, w.1 ≠ a) : applyAll m l a = m a := by
  induction l generalizing m with
  | nil => rfl
  | cons w l ih =>
    show applyAll (apply m w) l a = m a
    rw [ih _ fun v hv => h v (List.mem_cons_of_mem _ hv)]
    exact if_neg fun e => h w List.mem_cons_self e.symm
theorem applyAll_writesAt (m : Memory) (p : Nat) (l : List U8) (a : Nat) : applyAll m (writesAt p l) a =
    if p ≤ a ∧ a < p + l.length then l.getD (a - p) 0 else m a := by
  induction l generalizing m p with
  | nil => rw [if_neg (by simp only [List.length_nil]; omega)]; rfl
  | cons b l ih =>
    show applyAll (apply m (p, b)) (writesAt (p + 1) l) a = _
    rw [ih]
    simp only [List.length_cons]
    by_cases h1 : a = p
    · subst h1
      rw [if_neg (by omega), if_pos (by omega), Nat.sub_self]
      exact if_pos rfl
    · by_cases h2 : p + 1 ≤ a ∧ a < p + 1 + l.length
      · rw [if_pos h2, if_pos (by omega), show a - p = (a - (p + 1)) + 1 by omega]
        rfl
      · rw [if_neg h2, if_neg (by omega)]
        exact if_neg h1
theorem mem_writesAt {p : Nat} {l : List U8} {w : Write} (h : w ∈ writesAt p l) :
    p ≤ w.1 ∧ w.1 < p + l.length ∧ w.2 = l.getD (w.1 - p) 0 := by
  induction l generalizing p with
  | nil => cases h
  | cons b l ih =>
    simp only [writesAt, List.mem_cons] at h
    rcases h with h | h
    · subst h; simp
    · obtain ⟨h1, h2, h3⟩ := ih h
      refine ⟨by omega, by simp only [List.length_cons]; omega, ?_⟩
      rw [h3, show w.1 - p = (w.1 - (p + 1)) + 1 by omega]; rfl
theorem writesAt_take (p : Nat) (l : List U8) (k : Nat) : (writesAt p l).take k = writesAt p (l.take k) := by
  induction l generalizing p k with
  | nil => simp [writesAt]
  | cons b l ih => cases k with
    | zero => rfl
    | succ k => simp only [writesAt, List.take_succ_cons, ih]
theorem length_writesAt (p : Nat) (l : List U8) : (writesAt p l).length = l.length := by
  induction l generalizing p with
  | nil => rfl
  | cons b l ih => simp only [writesAt, List.length_cons, ih]

end Aes.Store
