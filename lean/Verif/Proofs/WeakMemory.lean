import Verif.Spec.WeakMemory
import Verif.Proofs.Threads
/-! Threads on a coherent memory: proofs (C67). -/
namespace Aes.Threads
open Rust Store

theorem does_within {R S : Nat → Prop} : ∀ (l : List Action) {p q : Prog}, p.Within R S → p.does l q →
    (∀ a v, .load a v ∈ l → R a) ∧ ∀ a v, .store a v ∈ l → S a
  | [], p, q, _, _ => ⟨nofun, nofun⟩
  | x :: l, p, q, h, hd => by
    match p, x, hd with
    | .load a k, .load b v, hd =>
      obtain ⟨rfl, hd⟩ := hd
      obtain ⟨h1, h2⟩ := does_within l (h.2 v) hd
      refine ⟨fun c w hc => ?_, fun c w hc => ?_⟩
      · rcases List.mem_cons.1 hc with e | e
        · cases e; exact h.1
        · exact h1 c w e
      · rcases List.mem_cons.1 hc with e | e
        · cases e
        · exact h2 c w e
    | .store w k, .store b v, hd =>
      obtain ⟨rfl, hd⟩ := hd
      obtain ⟨h1, h2⟩ := does_within l h.2 hd
      refine ⟨fun c w hc => ?_, fun c w hc => ?_⟩
      · rcases List.mem_cons.1 hc with e | e
        · cases e
        · exact h1 c w e
      · rcases List.mem_cons.1 hc with e | e
        · cases e; exact h.1
        · exact h2 c w e

theorem lastStore_mem {a : Nat} {v : U8} : ∀ {l : List Action}, lastStore a l = some v → .store a v ∈ l
  | x :: l, h => by
    unfold lastStore at h
    cases e : lastStore a l with
    | some w =>
      rw [e] at h
      cases h
      exact List.mem_cons_of_mem _ (lastStore_mem e)
    | none =>
      rw [e] at h
      match x, h with
      | .store b w, h =>
        simp only at h
        split at h
        · next hb => cases h; subst hb; exact List.mem_cons_self
        · cases h

theorem lastStore_none {a : Nat} : ∀ {l : List Action}, (∀ v, .store a v ∉ l) → lastStore a l = none := fun {l} h => by
  cases e : lastStore a l with
  | none => rfl
  | some v => exact absurd (lastStore_mem e) (h v)

theorem lastStore_append (a : Nat) (l l' : List Action) :
    lastStore a (l ++ l') = (lastStore a l').or (lastStore a l) := by
  induction l with
  | nil => simp [lastStore]
  | cons x l ih =>
    simp only [List.cons_append, lastStore, ih]
    cases lastStore a l' with
    | some v => rfl
    | none => rfl

/-- A thread whose loads return its own last stores, or what was there, runs as if it were alone. -/
theorem alone : ∀ (l : List Action) (p q : Prog) (m : Memory), p.does l q →
    (∀ l1 a v l2, l = l1 ++ .load a v :: l2 → v = (lastStore a l1).getD (m a)) →
    (p.steps m l.length).1 = q ∧ ∀ a, (p.steps m l.length).2 a = (lastStore a l).getD (m a)
  | [], p, q, m, hd, _ => ⟨by cases p <;> exact hd, fun _ => rfl⟩
  | x :: l, p, q, m, hd, hl => by
    match p, x, hd with
    | .load a k, .load b v, hd =>
      obtain ⟨rfl, hd⟩ := hd
      obtain rfl : v = m a := hl [] a v l rfl
      obtain ⟨h1, h2⟩ := alone l _ q m hd fun l1 c v l2 e => by
        have := hl (.load a (m a) :: l1) c v l2 (by rw [e]; rfl)
        rw [this, lastStore]
        cases lastStore c l1 <;> rfl
      refine ⟨h1, fun c => (h2 c).trans ?_⟩
      rw [lastStore]
      cases lastStore c l <;> rfl
    | .store w k, .store b v, hd =>
      obtain ⟨rfl, hd⟩ := hd
      have e1 (c : Nat) (l1 : List Action) : (lastStore c l1).getD (apply m (b, v) c) = (lastStore c (.store b v :: l1)).getD (m c) := by
        conv => rhs; rw [lastStore]
        cases lastStore c l1 with
        | some w => rfl
        | none =>
          by_cases hc : c = b
          · subst hc; simp [apply]
          · simp [apply, hc, Ne.symm hc]
      obtain ⟨h1, h2⟩ := alone l _ q (apply m (b, v)) hd fun l1 c w l2 e => by
        rw [hl (.store b v :: l1) c w l2 (by rw [e]; rfl), e1]
      exact ⟨h1, fun c => (h2 c).trans (e1 c l)⟩

theorem actions_split {i : Nat} {tr : List (Nat × Action)} {l1 l2 : List Action} {x : Action} (h : actionsOf i tr = l1 ++ x :: l2) :
    ∃ pre post, tr = pre ++ (i, x) :: post ∧ actionsOf i pre = l1 := by
  unfold actionsOf at h
  obtain ⟨t1, t2, rfl, h1, h2⟩ := List.filterMap_eq_append_iff.1 h
  obtain ⟨t3, e, t4, rfl, h3, h4, _⟩ := List.filterMap_eq_cons_iff.1 h2
  have he : e = (i, x) := by
    obtain ⟨j, y⟩ := e
    simp only at h4
    split at h4
    · next hj => cases h4; rw [hj]
    · cases h4
  refine ⟨t1 ++ t3, t4, by rw [he, List.append_assoc], ?_⟩
  unfold actionsOf
  rw [List.filterMap_append, h1, List.filterMap_eq_nil_iff.2 h3, List.append_nil]

theorem mem_actionsOf {i : Nat} {tr : List (Nat × Action)} {x : Action} : x ∈ actionsOf i tr ↔ (i, x) ∈ tr := by
  unfold actionsOf
  rw [List.mem_filterMap]
  constructor
  · rintro ⟨⟨j, y⟩, h, e⟩
    simp only at e
    split at e
    · next hj => cases e; cases hj; exact h
    · cases e
  · intro h
    exact ⟨(i, x), h, if_pos rfl⟩

theorem count_actions (i : Nat) (tr : List (Nat × Action)) : (tr.map Prod.fst).count i = (actionsOf i tr).length := by
  induction tr with
  | nil => rfl
  | cons e tr ih =>
    obtain ⟨j, x⟩ := e
    unfold actionsOf at ih ⊢
    by_cases h : j = i
    · subst h
      simp [ih]
    · simp [ih, h]

variable {R S : Nat → Nat → Prop} {s s' : System} {tr : List (Nat × Action)}

theorem no_conflict (h : ∀ i, (s.threads i).Within (R i) (S i)) (hd : ∀ i j, i ≠ j → ∀ a, S i a → ¬ R j a ∧ ¬ S j a)
    (hr : ∀ i, (s.threads i).does (actionsOf i tr) (s'.threads i)) {i j : Nat} (hij : i ≠ j) {x y : Action}
    (hx : (i, x) ∈ tr) (hy : (j, y) ∈ tr) : ¬ Conflict x y := by
  have hi := does_within _ (h i) (hr i)
  have hj := does_within _ (h j) (hr j)
  rw [← mem_actionsOf] at hx hy
  rintro ⟨a, v, w, ⟨rfl, rfl | rfl⟩ | ⟨rfl, rfl⟩⟩
  · exact (hd i j hij a (hi.2 a v hx)).1 (hj.1 a w hy)
  · exact (hd i j hij a (hi.2 a v hx)).2 (hj.2 a w hy)
  · exact (hd j i (Ne.symm hij) a (hj.2 a v hy)).1 (hi.1 a w hx)

theorem weak_is_sc (h : ∀ i, (s.threads i).Within (R i) (S i)) (hd : ∀ i j, i ≠ j → ∀ a, S i a → ¬ R j a ∧ ¬ S j a)
    (hr : WeakRun s tr s') : s.exec (tr.map Prod.fst) = s' := by
  have hn := noninterference h hd (tr.map Prod.fst)
  have hin := fun i => does_within _ (h i) (hr.does i)
  have hal := fun i => alone _ _ _ s.memory (hr.does i) fun l1 a v l2 e => by
    obtain ⟨pre, post, rfl, rfl⟩ := actions_split e
    refine (hr.coherent.loads pre i a v post rfl).resolve_right ?_
    rintro ⟨j, hj, hs⟩
    exact no_conflict h hd hr.does hj hs (List.mem_append_right pre List.mem_cons_self) ⟨a, v, v, .inl ⟨rfl, .inl rfl⟩⟩
  have ht : (s.exec (tr.map Prod.fst)).threads = s'.threads := funext fun i => by
    rw [(hn.1 i).1, count_actions, (hal i).1]
  have hm : (s.exec (tr.map Prod.fst)).memory = s'.memory := funext fun a => by
    by_cases hS : ∃ i, S i a
    · obtain ⟨i, hi⟩ := hS
      rw [(hn.1 i).2 a (.inr hi), count_actions, (hal i).2 a]
      rcases hr.coherent.final a with ⟨e, hno⟩ | ⟨j, hj⟩
      · rw [lastStore_none fun v hv => hno i v (mem_actionsOf.1 hv), e]; rfl
      · have hSj := (hin j).2 a _ (lastStore_mem hj)
        have : i = j := Classical.byContradiction fun hne => (hd i j hne a hi).2 hSj
        rw [this, hj]; rfl
    · rw [hn.2 a fun i hi => hS ⟨i, hi⟩]
      rcases hr.coherent.final a with ⟨e, _⟩ | ⟨j, hj⟩
      · exact e.symm
      · exact absurd ⟨j, (hin j).2 a _ (lastStore_mem hj)⟩ hS
  cases e : s.exec (tr.map Prod.fst)
  cases s'
  rw [e] at ht hm
  simp only at ht hm
  rw [ht, hm]

/-! ### Sequentially consistent runs are among them -/

/-- What a thread does in one step. -/
def Prog.act : Prog → Memory → List Action
  | .done _, _ => []
  | .load a _, m => [.load a (m a)]
  | .store w _, _ => [.store w.1 w.2]

theorem does_append : ∀ (l l' : List Action) {p q r : Prog}, p.does l q → q.does l' r → p.does (l ++ l') r
  | [], l', p, q, r, h, h' => by
    obtain rfl : p = q := by cases p <;> exact h
    exact h'
  | x :: l, l', p, q, r, h, h' => by
    match p, x, h with
    | .load a k, .load b v, h => exact ⟨h.1, does_append l l' h.2 h'⟩
    | .store w k, .store b v, h => exact ⟨h.1, does_append l l' h.2 h'⟩
theorem does_nil (p : Prog) : p.does [] p := by cases p <;> rfl
theorem does_step (p : Prog) (m : Memory) : p.does (p.act m) (p.step m).1 := by
  cases p with
  | done r => rfl
  | load a k => exact ⟨rfl, does_nil _⟩
  | store w k => exact ⟨rfl, does_nil _⟩

theorem actionsOf_append (i : Nat) (t t' : List (Nat × Action)) : actionsOf i (t ++ t') = actionsOf i t ++ actionsOf i t' :=
  List.filterMap_append ..

theorem actionsOf_map (i j : Nat) (l : List Action) : actionsOf i (l.map (j, ·)) = if j = i then l else [] := by
  by_cases h : j = i
  · rw [if_pos h]; subst h
    induction l with
    | nil => rfl
    | cons x l ih => unfold actionsOf at ih ⊢; simp [ih]
  · rw [if_neg h]
    unfold actionsOf
    simp [h]

theorem held_value {m m' : Memory} {tr : List (Nat × Action)} (h : Coherent m tr m') (i a : Nat) :
    m' a = (lastStore a (actionsOf i tr)).getD (m a) ∨ ∃ j, j ≠ i ∧ (j, .store a (m' a)) ∈ tr := by
  rcases h.final a with ⟨e, hno⟩ | ⟨j, hj⟩
  · rw [lastStore_none fun v hv => hno i v (mem_actionsOf.1 hv), e]; exact .inl rfl
  · by_cases hji : j = i
    · subst hji; rw [hj]; exact .inl rfl
    · exact .inr ⟨j, hji, mem_actionsOf.1 (lastStore_mem hj)⟩

theorem append_split {α : Type} {l l' pre post : List α} {x : α} (e : l ++ l' = pre ++ x :: post) :
    (∃ t, l = pre ++ x :: t) ∨ ∃ t, pre = l ++ t ∧ l' = t ++ x :: post := by
  rcases List.append_eq_append_iff.1 e with ⟨t, e1, e2⟩ | ⟨t, e1, e2⟩
  · exact .inr ⟨t, e1, e2⟩
  · cases t with
    | nil => exact .inr ⟨[], by rw [e1, List.append_nil, List.append_nil], e2.symm⟩
    | cons y t =>
      cases e2
      exact .inl ⟨t, e1⟩

theorem sc_step {s s' : System} {tr : List (Nat × Action)} (h : WeakRun s tr s') (i : Nat) :
    WeakRun s (tr ++ ((s'.threads i).act s'.memory).map (i, ·)) (s'.step i) := by
  refine ⟨fun j => ?_, ⟨fun pre j a v post e => ?_, fun a => ?_⟩⟩
  · rw [actionsOf_append, actionsOf_map]
    by_cases hij : j = i
    · subst hij
      rw [if_pos rfl]
      simp only [System.step, if_true]
      exact does_append _ _ (h.does j) (does_step _ _)
    · rw [if_neg (Ne.symm hij), List.append_nil]
      simp only [System.step, if_neg hij]
      exact h.does j
  · rcases append_split e with ⟨t, rfl⟩ | ⟨t, rfl, e'⟩
    · rcases h.coherent.loads pre j a v t rfl with e | ⟨k, hk, hm⟩
      · exact .inl e
      · exact .inr ⟨k, hk, List.mem_append_left _ hm⟩
    · -- the load is the new action
      cases hp : s'.threads i with
      | done r => rw [hp] at e'; simp [Prog.act] at e'
      | store w k =>
        rw [hp] at e'
        cases t <;> simp [Prog.act] at e'
      | load b k =>
        rw [hp] at e'
        obtain ⟨rfl, rfl, rfl, rfl⟩ : t = [] ∧ i = j ∧ b = a ∧ s'.memory b = v := by
          cases t with
          | nil =>
            have e'' : i = j ∧ b = a ∧ s'.memory b = v ∧ post = [] := by simpa [Prog.act, and_assoc] using e'
            exact ⟨rfl, e''.1, e''.2.1, e''.2.2.1⟩
          | cons y t => simp [Prog.act] at e'
        rw [List.append_nil]
        rcases held_value h.coherent i b with e | ⟨j, hj, hm⟩
        · exact .inl e
        · exact .inr ⟨j, hj, List.mem_append_left _ hm⟩
  · simp only [System.step]
    cases hp : s'.threads i with
    | done r => simpa [Prog.act, Prog.step] using h.coherent.final a
    | load b k =>
      simp only [Prog.act, Prog.step, List.map_cons, List.map_nil]
      rcases h.coherent.final a with ⟨e, hno⟩ | ⟨j, hj⟩
      · refine .inl ⟨e, fun j v hm => ?_⟩
        rcases List.mem_append.1 hm with hm | hm
        · exact hno j v hm
        · simp at hm
      · refine .inr ⟨j, ?_⟩
        rw [actionsOf_append, show [(i, Action.load b (s'.memory b))] = [Action.load b (s'.memory b)].map (i, ·) from rfl, actionsOf_map]
        split <;> simp [lastStore_append, lastStore, hj]
    | store w k =>
      simp only [Prog.act, Prog.step, List.map_cons, List.map_nil]
      have e0 (j : Nat) : actionsOf j (tr ++ [(i, Action.store w.1 w.2)]) = actionsOf j tr ++ if i = j then [.store w.1 w.2] else [] := by
        rw [actionsOf_append, show [(i, Action.store w.1 w.2)] = [Action.store w.1 w.2].map (i, ·) from rfl, actionsOf_map]
      by_cases hw : a = w.1
      · refine .inr ⟨i, ?_⟩
        rw [e0, if_pos rfl]
        simp [lastStore_append, lastStore, apply, hw]
      · simp only [apply, if_neg hw]
        rcases h.coherent.final a with ⟨e, hno⟩ | ⟨j, hj⟩
        · refine .inl ⟨e, fun j v hm => ?_⟩
          rcases List.mem_append.1 hm with hm | hm
          · exact hno j v hm
          · simp at hm; exact hw hm.2.1
        · refine .inr ⟨j, ?_⟩
          rw [e0]
          split <;> simp [lastStore_append, lastStore, hj, Ne.symm hw]

/-- Every schedule gives one. -/
theorem sc_is_weak (s : System) (schedule : List Nat) : ∃ tr, WeakRun s tr (s.exec schedule) := by
  have key : ∀ (l : List Nat) (s' : System), (∃ tr, WeakRun s tr s') → ∃ tr, WeakRun s tr (s'.exec l) := by
    intro l
    induction l with
    | nil => exact fun _ h => h
    | cons i l ih =>
      rintro s' ⟨tr, h⟩
      exact ih _ ⟨_, sc_step h i⟩
  refine key schedule s ⟨[], fun i => does_nil _, ⟨fun pre i a v post e => ?_, fun a => .inl ⟨rfl, fun _ _ => nofun⟩⟩⟩
  cases pre <;> cases e

end Aes.Threads
