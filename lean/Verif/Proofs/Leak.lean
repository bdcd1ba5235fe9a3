import Verif.Model.LeakLib
/-! Lemmas on runs: results (`out`) and comparison of traces (`Same`). -/
namespace Aes.Leak
open Rust

/-! ### Results -/

theorem out_bind {α β : Type} (m : L α) (f : α → L β) : (m >>= f).out = (m.out >>= fun a => (f a).out) := by
  show (L.bind m f).out = _
  unfold L.bind
  cases m.out <;> rfl
theorem out_pure {α : Type} (a : α) : (pure a : L α).out = .ok a := rfl
theorem trace_pure {α : Type} (a : α) : (pure a : L α).trace = [] := rfl
theorem trace_bind {α β : Type} {m : L α} {f : α → L β} {a : α} (h : m.out = .ok a) :
    (m >>= f).trace = m.trace ++ (f a).trace := by
  show (L.bind m f).trace = _
  unfold L.bind
  rw [h]
theorem out_bind_ok {α β : Type} {m : L α} {f : α → L β} {a : α} (h : m.out = .ok a) : (m >>= f).out = (f a).out := by
  rw [out_bind, h]; rfl
theorem out_idx {α : Type} {n : Nat} (a : Arr) (v : Vector α n) (i : Nat) : (idx a v i).out = Rust.idx v i := by
  unfold idx Rust.idx; split <;> rfl
theorem out_upd {α : Type} {n : Nat} (a : Arr) (v : Vector α n) (i : Nat) (x : α) : (upd a v i x).out = Rust.upd v i x := by
  unfold upd Rust.upd; split <;> rfl
theorem out_sidx {α : Type} (s : List α) (i : Nat) : (sidx s i).out = Rust.sidx s i := by
  unfold sidx Rust.sidx; split <;> rfl
theorem out_supd {α : Type} (s : List α) (i : Nat) (x : α) : (supd s i x).out = Rust.supd s i x := by
  unfold supd Rust.supd; split <;> rfl
theorem out_sliceTo {α : Type} (s : List α) (k : Nat) : (sliceTo s k).out = Rust.sliceTo s k := by
  unfold sliceTo Rust.sliceTo; split <;> rfl
theorem out_sliceFrom {α : Type} (s : List α) (k : Nat) : (sliceFrom s k).out = Rust.sliceFrom s k := by
  unfold sliceFrom Rust.sliceFrom; split <;> rfl
theorem out_copyFromSlice {α : Type} (d s : List α) : (copyFromSlice d s).out = Rust.copyFromSlice d s := by
  unfold copyFromSlice Rust.copyFromSlice; split <;> rfl
theorem out_arrayTryFrom {α : Type} (n : Nat) (s : List α) : (arrayTryFrom n s).out = Rust.arrayTryFrom n s := by
  unfold arrayTryFrom Rust.arrayTryFrom; split <;> rfl
theorem out_unwrap {ε α : Type} (r : Except ε α) : (unwrap r).out = Rust.unwrap r := by
  cases r <;> rfl
theorem out_rawRead (s : List U8) (o n : Nat) : (rawRead s o n).out = Rust.rawRead s o n := rfl
theorem out_branch (b : Bool) : (branch b).out = .ok () := rfl
theorem out_emit {α : Type} (o : Op) (a : α) : (emit o a).out = .ok a := rfl
theorem out_assert (b : Bool) : (assert b).out = Rust.assert b := by cases b <;> rfl
theorem out_onTo {α : Type} {s : List α} {k : Nat} {f : List α → L (List α)} {g : List α → M (List α)}
    (h : ∀ s, (f s).out = g s) : (onTo s k f).out = Rust.onTo s k g := by
  unfold onTo Rust.onTo
  simp only [out_bind, out_sliceTo, h, out_pure]; rfl
theorem out_onFrom {α : Type} {s : List α} {k : Nat} {f : List α → L (List α)} {g : List α → M (List α)}
    (h : ∀ s, (f s).out = g s) : (onFrom s k f).out = Rust.onFrom s k g := by
  unfold onFrom Rust.onFrom
  simp only [out_bind, out_sliceFrom, h, out_pure]; rfl
theorem ok_bind {α β : Type} (a : α) (f : α → M β) : ((Except.ok a : M α) >>= f) = f a := rfl
theorem out_forEach {α β : Type} (l : List β) {f : α → β → L α} {g : α → β → M α} (h : ∀ a x, (f a x).out = g a x) (a : α) :
    (forEach l f a).out = l.foldlM g a := by
  induction l generalizing a with
  | nil => rfl
  | cons x l ih =>
    simp only [forEach, out_bind, out_branch, ok_bind, h, List.foldlM_cons]
    exact congrArg _ (funext fun b => ih b)
theorem out_forEach_ok {α β : Type} (l : List β) {f : α → β → L α} {g : α → β → α} (h : ∀ a x, (f a x).out = .ok (g a x)) (a : α) :
    (forEach l f a).out = .ok (l.foldl g a) := by
  induction l generalizing a with
  | nil => rfl
  | cons x l ih =>
    simp only [forEach, out_bind, out_branch, ok_bind, h, List.foldl_cons]
    exact ih _

/-! ### Comparison -/

section same
variable {α β γ δ : Type}

theorem Same.bind {R : α → β → Prop} {S : γ → δ → Prop} {m : L α} {m' : L β} {f : α → L γ} {f' : β → L δ}
    (h : Same R m m') (hf : ∀ a b, R a b → Same S (f a) (f' b)) : Same S (m >>= f) (m' >>= f') := by
  show Same S (L.bind m f) (L.bind m' f')
  obtain ⟨h1, h2⟩ := h
  unfold L.bind
  cases hm : m.out with
  | error e =>
    cases hm' : m'.out with
    | error e' => rw [hm, hm'] at h2; exact ⟨h1, h2⟩
    | ok b => rw [hm, hm'] at h2; exact h2.elim
  | ok a =>
    cases hm' : m'.out with
    | error e' => rw [hm, hm'] at h2; exact h2.elim
    | ok b =>
      rw [hm, hm'] at h2
      obtain ⟨h3, h4⟩ := hf a b h2
      exact ⟨by show m.trace ++ _ = m'.trace ++ _; rw [h1, h3], h4⟩
theorem Same.bind_any {S : γ → δ → Prop} {m : L α} {m' : L β} {f : α → L γ} {f' : β → L δ}
    (h : Same Any m m') (hf : ∀ a b, Same S (f a) (f' b)) : Same S (m >>= f) (m' >>= f') :=
  Same.bind h fun a b _ => hf a b
theorem Same.pure {R : α → β → Prop} {a : α} {b : β} (h : R a b) : Same R (Pure.pure a : L α) (Pure.pure b : L β) := ⟨rfl, h⟩
theorem Same.mono {R S : α → β → Prop} (h : ∀ a b, R a b → S a b) {m : L α} {m' : L β} (hm : Same R m m') : Same S m m' := by
  refine ⟨hm.1, ?_⟩
  have h2 := hm.2
  revert h2
  cases m.out <;> cases m'.out <;> intro h2
  · exact h2
  · exact h2
  · exact h2
  · exact h _ _ h2
theorem Same.any {R : α → β → Prop} {m : L α} {m' : L β} (hm : Same R m m') : Same Any m m' := hm.mono fun _ _ _ => trivial
theorem Same.emit {o : Op} (a : α) (b : β) : Same Any (emit o a) (emit o b) := ⟨rfl, trivial⟩
theorem Same.branch (b : Bool) : Same Any (branch b) (branch b) := ⟨rfl, trivial⟩
theorem Same.assert (b : Bool) : Same Any (assert b) (assert b) := by cases b <;> exact ⟨rfl, by first | trivial | rfl⟩
theorem Same.idx {n : Nat} {a : Arr} (v : Vector α n) (v' : Vector β n) (i : Nat) : Same Any (idx a v i) (idx a v' i) := by
  unfold Leak.idx; split <;> exact ⟨rfl, by first | trivial | rfl⟩
theorem Same.upd {n : Nat} {a : Arr} (v : Vector α n) (v' : Vector β n) (i : Nat) (x : α) (x' : β) :
    Same Any (upd a v i x) (upd a v' i x') := by
  unfold Leak.upd; split <;> exact ⟨rfl, by first | trivial | rfl⟩
/-- Lists of the same length. -/
def SameLen (s : List α) (s' : List β) : Prop := s.length = s'.length
theorem Same.sidx {s : List α} {s' : List β} (h : SameLen s s') (i : Nat) : Same Any (sidx s i) (sidx s' i) := by
  unfold Leak.sidx
  have h' : s.length = s'.length := h
  by_cases hi : i < s.length
  · rw [dif_pos hi, dif_pos (h' ▸ hi)]; exact ⟨rfl, trivial⟩
  · rw [dif_neg hi, dif_neg (h' ▸ hi)]; exact ⟨rfl, rfl⟩
theorem Same.supd {s : List α} {s' : List β} (h : SameLen s s') (i : Nat) (x : α) (x' : β) :
    Same SameLen (supd s i x) (supd s' i x') := by
  unfold Leak.supd
  have h' : s.length = s'.length := h
  by_cases hi : i < s.length
  · rw [if_pos hi, if_pos (h' ▸ hi)]; exact ⟨rfl, by show (s.set i x).length = (s'.set i x').length; simp [h']⟩
  · rw [if_neg hi, if_neg (h' ▸ hi)]; exact ⟨rfl, rfl⟩
theorem Same.sliceTo {s : List α} {s' : List β} (h : SameLen s s') (k : Nat) : Same SameLen (sliceTo s k) (sliceTo s' k) := by
  unfold Leak.sliceTo
  have h' : s.length = s'.length := h
  by_cases hi : k ≤ s.length
  · rw [if_pos hi, if_pos (h' ▸ hi)]; exact ⟨rfl, by show (s.take k).length = (s'.take k).length; simp [h']⟩
  · rw [if_neg hi, if_neg (h' ▸ hi)]; exact ⟨rfl, rfl⟩
theorem Same.sliceFrom {s : List α} {s' : List β} (h : SameLen s s') (k : Nat) : Same SameLen (sliceFrom s k) (sliceFrom s' k) := by
  unfold Leak.sliceFrom
  have h' : s.length = s'.length := h
  by_cases hi : k ≤ s.length
  · rw [if_pos hi, if_pos (h' ▸ hi)]; exact ⟨rfl, by show (s.drop k).length = (s'.drop k).length; simp [h']⟩
  · rw [if_neg hi, if_neg (h' ▸ hi)]; exact ⟨rfl, rfl⟩
theorem Same.onTo {s : List α} {s' : List β} (h : SameLen s s') (k : Nat) {f : List α → L (List α)} {f' : List β → L (List β)}
    (hf : ∀ s s', SameLen s s' → Same SameLen (f s) (f' s')) : Same SameLen (onTo s k f) (onTo s' k f') := by
  have h' : s.length = s'.length := h
  refine Same.bind (Same.sliceTo h k) fun a b hab => Same.bind (hf a b hab) fun c d hcd => Same.pure ?_
  have hcd' : c.length = d.length := hcd
  show (c ++ s.drop k).length = (d ++ s'.drop k).length
  simp [h', hcd']
theorem Same.onFrom {s : List α} {s' : List β} (h : SameLen s s') (k : Nat) {f : List α → L (List α)} {f' : List β → L (List β)}
    (hf : ∀ s s', SameLen s s' → Same SameLen (f s) (f' s')) : Same SameLen (onFrom s k f) (onFrom s' k f') := by
  have h' : s.length = s'.length := h
  refine Same.bind (Same.sliceFrom h k) fun a b hab => Same.bind (hf a b hab) fun c d hcd => Same.pure ?_
  have hcd' : c.length = d.length := hcd
  show (s.take k ++ c).length = (s'.take k ++ d).length
  simp [h', hcd']
theorem Same.copyFromSlice {d s : List α} {d' s' : List β} (h : SameLen d d') (h2 : SameLen s s') :
    Same SameLen (copyFromSlice d s) (copyFromSlice d' s') := by
  unfold Leak.copyFromSlice
  have h' : d.length = d'.length := h
  have h2' : s.length = s'.length := h2
  by_cases hi : d.length = s.length
  · rw [if_pos hi, if_pos (by omega)]
    exact ⟨by show _ :: writes s.length = _ :: writes s'.length; rw [h2'], h2⟩
  · rw [if_neg hi, if_neg (by omega)]; exact ⟨rfl, rfl⟩
theorem Same.arrayTryFrom {s : List α} {s' : List β} (h : SameLen s s') (n : Nat) :
    Same Any (arrayTryFrom n s) (arrayTryFrom n s') := by
  unfold Leak.arrayTryFrom
  have h' : s.length = s'.length := h
  by_cases hi : s.length = n
  · rw [dif_pos hi, dif_pos (h' ▸ hi)]; exact ⟨rfl, trivial⟩
  · rw [dif_neg hi, dif_neg (h' ▸ hi)]; exact ⟨rfl, rfl⟩
theorem Same.quietArray {s : List α} {s' : List β} (h : SameLen s s') (n : Nat) :
    Same Any (⟨[], Rust.arrayTryFrom n s⟩ : L (Vector α n)) (⟨[], Rust.arrayTryFrom n s'⟩ : L (Vector β n)) := by
  unfold Rust.arrayTryFrom
  have h' : s.length = s'.length := h
  by_cases hi : s.length = n
  · rw [dif_pos hi, dif_pos (h' ▸ hi)]; exact ⟨rfl, trivial⟩
  · rw [dif_neg hi, dif_neg (h' ▸ hi)]; exact ⟨rfl, rfl⟩
theorem Same.rawRead {s s' : List U8} (h : SameLen s s') (o n : Nat) : Same Any (rawRead s o n) (rawRead s' o n) := by
  unfold Leak.rawRead Rust.rawRead
  have h' : s.length = s'.length := h
  by_cases hi : o + n ≤ s.length
  · rw [dif_pos hi, dif_pos (h' ▸ hi)]; exact ⟨rfl, trivial⟩
  · rw [dif_neg hi, dif_neg (h' ▸ hi)]; exact ⟨rfl, rfl⟩
/-- Lists related element by element. -/
inductive All2 (S : γ → δ → Prop) : List γ → List δ → Prop where
  | nil : All2 S [] []
  | cons {x : γ} {y : δ} {l : List γ} {l' : List δ} : S x y → All2 S l l' → All2 S (x :: l) (y :: l')
theorem Same.forEach {R : α → β → Prop} {S : γ → δ → Prop} {l : List γ} {l' : List δ} (hl : All2 S l l') {f : α → γ → L α} {f' : β → δ → L β}
    (hf : ∀ a b x y, R a b → S x y → Same R (f a x) (f' b y)) {a : α} {b : β} (hab : R a b) :
    Same R (forEach l f a) (forEach l' f' b) := by
  induction hl generalizing a b with
  | nil => exact Same.bind_any (Same.branch false) fun _ _ => Same.pure hab
  | cons hxy _ ih =>
    exact Same.bind_any (Same.branch true) fun _ _ => Same.bind (hf _ _ _ _ hab hxy) fun _ _ h => ih h
theorem Same.trace_eq {R : α → β → Prop} {m : L α} {m' : L β} (h : Same R m m') : m.trace = m'.trace := h.1

theorem all2_refl (l : List α) : All2 Eq l l := by
  induction l with
  | nil => exact .nil
  | cons x l ih => exact .cons rfl ih
theorem all2_any {l : List α} {l' : List β} (h : SameLen l l') : All2 Any l l' := by
  induction l generalizing l' with
  | nil => cases l' with
    | nil => exact .nil
    | cons y l' => cases h
  | cons x l ih => cases l' with
    | nil => cases h
    | cons y l' => exact .cons trivial (ih (Nat.succ.inj h))
end same
end Aes.Leak
