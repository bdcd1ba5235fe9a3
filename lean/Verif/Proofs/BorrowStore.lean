import Verif.Proofs.Borrow
/-! `store_to` on any well-formed state, and what the pointers of the caller can do afterwards. -/
namespace Aes.Borrow
open Rust AesSpec
open Store (applyAll writesAt)

theorem split_eq {k : Access} {t : Tag} {s ab be : Stack} {g : Item} (h : split k t s = some (ab, g, be)) :
    s = ab ++ g :: be ∧ g.tag = t ∧ g.perm.allows k = true ∧ ∀ i ∈ ab, ¬ (i.tag = t ∧ i.perm.allows k = true) := by
  induction s generalizing ab with
  | nil => cases h
  | cons i s ih =>
    rw [split] at h
    split at h
    · next hi =>
      cases h
      exact ⟨rfl, hi.1, hi.2, fun i hi => by cases hi⟩
    · next hi =>
      cases hs : split k t s with
      | none => rw [hs] at h; cases h
      | some p =>
        rw [hs] at h
        obtain ⟨h1, h2, h3⟩ := Prod.mk.inj (Option.some.inj h) |>.imp id Prod.mk.inj
        subst h1; 
        obtain ⟨e, h4, h5, h6⟩ := ih (ab := p.1) (by rw [hs, ← h2, ← h3])
        refine ⟨by rw [e]; rfl, h4, h5, ?_⟩
        intro j hj
        rcases List.mem_cons.mp hj with hj | hj
        · subst hj; exact hi
        · exact h6 j hj
theorem split_none_append {k : Access} {t : Tag} {j s : Stack} (h : ∀ i ∈ j, i.tag ≠ t) :
    split k t (j ++ s) = (split k t s).map fun p => (j ++ p.1, p.2.1, p.2.2) := by
  induction j with
  | nil => rw [List.nil_append]; cases split k t s <;> rfl
  | cons i j ih =>
    rw [List.cons_append, split, if_neg fun h' => h i (by simp) h'.1, ih fun i hi => h i (by simp [hi])]
    cases split k t s <;> rfl

theorem mem_popped {g : Item} {ab : Stack} {i : Item} (h : i ∈ popped g ab) : i ∈ ab := by
  unfold popped at h
  split at h
  · rw [List.mem_reverse] at h
    exact List.mem_reverse.mp ((List.dropWhile_sublist _).subset h)
  · exact h
theorem mem_kept {g : Item} {ab : Stack} {i : Item} (h : i ∈ kept g ab) : i ∈ ab := by
  unfold kept at h
  split at h
  · rw [List.mem_reverse] at h
    exact List.mem_reverse.mp ((List.takeWhile_sublist _).subset h)
  · cases h
theorem kept_rw {g : Item} {ab : Stack} {i : Item} (h : i ∈ kept g ab) : isRW i = true := by
  unfold kept at h
  split at h
  · rw [List.mem_reverse] at h
    exact List.all_eq_true.mp List.all_takeWhile i h
  · cases h

theorem any_congr {α : Type} {l : List α} {p q : α → Bool} (h : ∀ x ∈ l, p x = q x) : l.any p = l.any q := by
  induction l with
  | nil => rfl
  | cons x l ih => rw [List.any_cons, List.any_cons, h x (by simp), ih fun y hy => h y (by simp [hy])]

theorem dropWhile_all {α : Type} {l : List α} {p : α → Bool} (h : ∀ x ∈ l, p x = true) : l.dropWhile p = [] := by
  induction l with
  | nil => rfl
  | cons x l ih => rw [List.dropWhile_cons, if_pos (h x (by simp)), ih fun y hy => h y (by simp [hy])]
theorem takeWhile_all {α : Type} {l : List α} {p : α → Bool} (h : ∀ x ∈ l, p x = true) : l.takeWhile p = l := by
  induction l with
  | nil => rfl
  | cons x l ih => rw [List.takeWhile_cons, if_pos (h x (by simp)), ih fun y hy => h y (by simp [hy])]

/-- An access depends only on which of the items are protected. -/
theorem access_congr {A A' : List CallId} {k : Access} {t : Tag} {s : Stack} (h : ∀ i ∈ s, guarded A i = guarded A' i) :
    access A k t s = access A' k t s := by
  unfold access
  cases hs : split k t s with
  | none => rfl
  | some p =>
    obtain ⟨ab, g, be⟩ := p
    obtain ⟨rfl, -, -, -⟩ := split_eq hs
    cases k with
    | read =>
      simp only
      rw [any_congr fun i hi => by rw [h i (by simp [hi])]]
    | write =>
      simp only
      rw [any_congr fun i hi => h i (by simp [mem_popped hi])]

theorem access_write_some {A : List CallId} {t : Tag} {s st : Stack} (h : access A .write t s = some st) :
    ∃ ab g be, split .write t s = some (ab, g, be) ∧ (popped g ab).any (guarded A) = false ∧ st = kept g ab ++ g :: be := by
  unfold access at h
  cases hs : split .write t s with
  | none => rw [hs] at h; cases h
  | some p =>
    obtain ⟨ab, g, be⟩ := p
    rw [hs] at h
    simp only at h
    split at h
    · cases h
    · next hg => exact ⟨ab, g, be, rfl, by simpa using hg, (Option.some.inj h).symm⟩

theorem access_mem {A : List CallId} {t : Tag} {s st : Stack} (h : access A .write t s = some st) {i : Item} (hi : i ∈ st) : i ∈ s := by
  obtain ⟨ab, g, be, hs, -, rfl⟩ := access_write_some h
  obtain ⟨rfl, -, -, -⟩ := split_eq hs
  rcases List.mem_append.mp hi with hi | hi
  · exact List.mem_append_left _ (mem_kept hi)
  · exact List.mem_append_right _ hi

/-- A pointer that has written may write again. -/
theorem access_again {A : List CallId} {t : Tag} {s st : Stack} (h : access A .write t s = some st) : access A .write t st = some st := by
  obtain ⟨ab, g, be, hs, -, rfl⟩ := access_write_some h
  obtain ⟨rfl, ht, hg, hn⟩ := split_eq hs
  subst ht
  have hk : ∀ i ∈ kept g ab, i.tag ≠ g.tag := fun i hi he => hn i (mem_kept hi) ⟨he, by
    have := kept_rw hi
    simp only [isRW, decide_eq_true_eq] at this
    rw [this]; rfl⟩
  unfold access
  rw [split_append hg hk]
  simp only
  have hp : popped g (kept g ab) = [] := by
    unfold popped
    split
    · rw [dropWhile_all fun i hi => kept_rw (List.mem_reverse.mp hi)]; rfl
    · next h => unfold kept; rw [if_neg h]
  have hkk : kept g (kept g ab) = kept g ab := by
    by_cases h : isRW g = true
    · have hu : ∀ l, kept g l = (l.reverse.takeWhile isRW).reverse := fun l => by unfold kept; rw [if_pos h]
      rw [hu (kept g ab), takeWhile_all (p := isRW) fun i hi => kept_rw (List.mem_reverse.mp hi), List.reverse_reverse]
    · have : ∀ l, kept g l = [] := fun l => by unfold kept; rw [if_neg h]
      rw [this, this]
  rw [hp, hkk]; rfl

/-- Items of dead newer pointers on top do not matter to older pointers. -/
theorem access_append {A : List CallId} {k : Access} {u : Tag} {j s : Stack} (h : ∀ i ∈ j, i.tag ≠ u ∧ guarded A i = false) :
    (access A k u (j ++ s)).isSome = (access A k u s).isSome := by
  unfold access
  rw [split_none_append fun i hi => (h i hi).1]
  cases hs : split k u s with
  | none => rfl
  | some p =>
    obtain ⟨ab, g, be⟩ := p
    simp only [Option.map_some]
    cases k with
    | read =>
      simp only
      have e : (j ++ ab).any (fun i => i.perm = .unique && guarded A i) = ab.any (fun i => i.perm = .unique && guarded A i) := by
        rw [List.any_append]
        have : j.any (fun i => i.perm = .unique && guarded A i) = false := by
          rw [List.any_eq_false]; intro i hi; simp [(h i hi).2]
        rw [this]; rfl
      rw [e]; split <;> rfl
    | write =>
      simp only
      have e : (popped g (j ++ ab)).any (guarded A) = (popped g ab).any (guarded A) := by
        have hj : ∀ l : Stack, (∀ i ∈ l, i ∈ j) → l.any (guarded A) = false := fun l hl => by
          rw [List.any_eq_false]; intro i hi; rw [(h i (hl i hi)).2]; simp
        unfold popped
        split
        · rw [List.reverse_append, List.dropWhile_append]
          split
          · next he =>
            rw [List.isEmpty_iff] at he
            rw [he, List.any_reverse, hj]
            · rfl
            · exact fun i hi => List.mem_reverse.mp ((List.dropWhile_sublist _).subset hi)
          · rw [List.reverse_append, List.reverse_reverse, List.any_append, hj _ fun _ h => h, Bool.false_or]
        · rw [List.any_append, hj _ fun _ h => h, Bool.false_or]
      rw [e]; split <;> rfl

theorem guarded_next {σ : State} (w : σ.WellFormed) {a : Nat} {i : Item} (hi : i ∈ σ.stacks a) :
    guarded (σ.nextCall :: σ.active) i = guarded σ.active i := by
  unfold guarded
  cases hp : i.protector with
  | none => rfl
  | some c =>
    have := w.protectors a i hi c hp
    simp only [List.contains_cons]
    rw [show (c == σ.nextCall) = false by simpa using Nat.ne_of_lt this]; rfl

theorem onRange_ub {p n : Nat} {f : Stack → Option Stack} {σ : State} {a : Nat} (ha : p ≤ a ∧ a < p + n) (h : f (σ.stacks a) = none) :
    onRange p n f σ = .error .ub := by
  unfold onRange
  rw [if_neg fun h' => by
    have := h' (a - p) (by omega)
    rw [show p + (a - p) = a by omega, h] at this
    cases this]

theorem Left.wellFormed {r st σ σ' ws} (w : σ.WellFormed) (l : Left r st σ σ' ws) (h : ∀ a, In r a → ∀ i ∈ st a, i ∈ σ.stacks a) :
    σ'.WellFormed := by
  have key : ∀ a, ∀ i ∈ σ'.stacks a, (i ∈ σ.stacks a) ∨ (i.tag < σ'.nextTag ∧ ∀ c, i.protector = some c → c < σ'.nextCall) := by
    intro a i hi
    by_cases ha : In r a
    · obtain ⟨j, e, hj⟩ := l.inside a ha
      rw [e] at hi
      rcases List.mem_append.mp hi with hi | hi
      · exact .inr ⟨(hj i hi).2.1, fun c hc => ((hj i hi).2.2 c hc).1⟩
      · exact .inl (h a ha i hi)
    · rw [l.frame.outside a ha] at hi; exact .inl hi
  refine ⟨fun c hc => ?_, fun a i hi => ?_, fun a i hi c hc => ?_⟩
  · rw [l.frame.active] at hc; exact Nat.lt_of_lt_of_le (w.calls c hc) l.frame.calls
  · rcases key a i hi with h' | h'
    · exact Nat.lt_of_lt_of_le (w.tags a i h') l.frame.tags
    · exact h'.1
  · rcases key a i hi with h' | h'
    · exact Nat.lt_of_lt_of_le (w.protectors a i h' c hc) l.frame.calls
    · exact h'.2 c hc

section
variable {T : Type} {n : Nat} [AesVec T n] [LawfulVec T] [StoreTo T] [LawfulBorrow T]

theorem store_to_left (x : T) {σ : State} (w : σ.WellFormed) (r : Ref) (st : Nat → Stack)
    (h : ∀ a, In r a → access σ.active .write r.tag (σ.stacks a) = some (st a)) (hl : n ≤ r.len) :
    ∃ σ', StoreTo.store_to x r σ = .ok ((), σ') ∧ Left r st σ σ' (writesAt r.ptr (view x).toList) := by
  obtain ⟨f, hf, h1, _⟩ := LawfulBorrow.law x
  obtain ⟨σ', e, p⟩ := h1 (entered σ r st) _ ⟨r.ptr, r.len, σ.nextTag⟩ (held_entered w.calls) hl
  refine ⟨_, ?_, leave w.calls p⟩
  rw [hf, call_argument st fun a ha => (access_congr fun i hi => guarded_next w hi).trans (h a ha), e]; rfl
theorem store_to_short (x : T) {σ : State} (w : σ.WellFormed) (r : Ref)
    (h : ∀ a, In r a → (access σ.active .write r.tag (σ.stacks a)).isSome) (hl : r.len < n) :
    StoreTo.store_to x r σ = .error .panic := by
  obtain ⟨f, hf, _, h2⟩ := LawfulBorrow.law x
  rw [hf, call_argument (fun a => (access σ.active .write r.tag (σ.stacks a)).getD []), h2 _ ⟨r.ptr, r.len, σ.nextTag⟩ hl]
  · rfl
  · intro a ha
    rw [access_congr fun i hi => guarded_next w hi]
    obtain ⟨y, hy⟩ := Option.isSome_iff_exists.mp (h a ha)
    rw [hy]; rfl
include n in
theorem store_to_ub (x : T) {σ : State} (w : σ.WellFormed) (r : Ref) {a : Nat} (ha : In r a)
    (h : access σ.active .write r.tag (σ.stacks a) = none) : StoreTo.store_to x r σ = .error .ub := by
  obtain ⟨f, hf, _, _⟩ := LawfulBorrow.law x
  rw [hf]
  show ((argument σ.nextCall r >>= f) _ >>= _) = _
  rw [bind_fail (e := .ub)]
  · rfl
  · unfold argument
    apply bind_fail
    unfold retag
    rw [onRange_ub ha]
    · rfl
    · show Option.map _ (access (σ.nextCall :: σ.active) .write r.tag (σ.stacks a)) = none
      rw [access_congr fun i hi => guarded_next w hi, h]; rfl
end
end Aes.Borrow
