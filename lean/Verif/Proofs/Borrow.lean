import Verif.Model.Borrow
import Verif.Proofs.Store
/-! `store_to` under the borrow stacks of Spec/Borrows.lean: proofs. -/
namespace Aes.Borrow
open Rust AesSpec
open Store (applyAll writesAt)

/-- Is `a` an address in the slice? -/
def In (r : Ref) (a : Nat) : Prop := r.ptr ≤ a ∧ a < r.ptr + r.len
instance (r : Ref) (a : Nat) : Decidable (In r a) := inferInstanceAs (Decidable (_ ∧ _))
/-- Not an argument of a call that runs now or starts later. -/
def Dead (σ : State) (i : Item) : Prop := ∀ c, i.protector = some c → c < σ.nextCall ∧ c ∉ σ.active
def Above (σ : State) (t : Tag) (j : Stack) : Prop := ∀ i ∈ j, t < i.tag ∧ i.tag < σ.nextTag ∧ Dead σ i

theorem bind_run {α β : Type} {f : B α} {g : α → B β} {σ σ' : State} {x : α} (h : f σ = .ok (x, σ')) : (f >>= g) σ = g x σ' := by
  show (f σ >>= fun p => g p.1 p.2) = _
  rw [h]; rfl
theorem bind_fail {α β : Type} {f : B α} {g : α → B β} {σ : State} {e : Fault} (h : f σ = .error e) : (f >>= g) σ = .error e := by
  show (f σ >>= fun p => g p.1 p.2) = _
  rw [h]; rfl

theorem guarded_dead {σ : State} {i : Item} (h : Dead σ i) : guarded σ.active i = false := by
  unfold guarded
  cases hp : i.protector with
  | none => rfl
  | some c => simpa using (h c hp).2

theorem split_append {a : Access} {g : Item} {j tl : Stack} (hg : g.perm.allows a = true) (hj : ∀ i ∈ j, i.tag ≠ g.tag) :
    split a g.tag (j ++ g :: tl) = some (j, g, tl) := by
  induction j with
  | nil => simp [split, hg]
  | cons i j ih =>
    rw [List.cons_append, split, if_neg (fun h => hj i (by simp) h.1), ih fun i hi => hj i (by simp [hi])]
    rfl

theorem access_write {σ : State} {g : Item} {j tl : Stack} (hg : g.perm = .unique) (hj : Above σ g.tag j) :
    access σ.active .write g.tag (j ++ g :: tl) = some (g :: tl) := by
  unfold access
  rw [split_append (by rw [hg]; rfl) fun i hi => Nat.ne_of_gt (hj i hi).1]
  have hr : isRW g = false := by simp [isRW, hg]
  simp only [popped, kept, hr]
  rw [if_neg]
  · rfl
  · simp only [List.any_eq_true, not_exists, not_and]
    intro i hi
    rw [guarded_dead (hj i hi).2.2]
    simp

theorem onRange_ok {p n : Nat} {f : Stack → Option Stack} {σ : State} (g : Nat → Stack)
    (h : ∀ a, p ≤ a ∧ a < p + n → f (σ.stacks a) = some (g a)) :
    onRange p n f σ = .ok ((), { σ with stacks := fun a => if p ≤ a ∧ a < p + n then g a else σ.stacks a }) := by
  unfold onRange
  rw [if_pos fun i hi => by rw [h _ ⟨by omega, by omega⟩]; rfl]
  congr 3
  funext a
  by_cases ha : p ≤ a ∧ a < p + n
  · rw [if_pos ha, if_pos ha, h a ha]; rfl
  · rw [if_neg ha, if_neg ha]

theorem retag_unique {c : Option CallId} {t : Tag} {p n : Nat} {σ : State} (st : Nat → Stack)
    (h : ∀ a, p ≤ a ∧ a < p + n → access σ.active .write t (σ.stacks a) = some (st a)) :
    retag .unique c t p n σ = .ok (σ.nextTag, { σ with
      stacks := fun a => if p ≤ a ∧ a < p + n then ⟨.unique, σ.nextTag, c⟩ :: st a else σ.stacks a
      nextTag := σ.nextTag + 1 }) := by
  unfold retag
  rw [onRange_ok (fun a => ⟨.unique, σ.nextTag, c⟩ :: st a)]
  · rfl
  · intro a ha
    simp only [derive, h a ha]; rfl

/-- The pointer `r` may write its slice. `D a` is the borrow stack of the byte at `a` after such a write; the items above it are those of
newer pointers, made from `r`. -/
structure Held (σ : State) (r : Ref) (D : Nat → Stack) : Prop where
  top : ∀ a, In r a → ∃ p tl, D a = ⟨.unique, r.tag, p⟩ :: tl
  stack : ∀ a, In r a → ∃ j, σ.stacks a = j ++ D a ∧ Above σ r.tag j
  tag : r.tag < σ.nextTag
  calls : ∀ c ∈ σ.active, c < σ.nextCall
structure Frame (r : Ref) (σ σ' : State) : Prop where
  active : σ'.active = σ.active
  tags : σ.nextTag ≤ σ'.nextTag
  calls : σ.nextCall ≤ σ'.nextCall
  outside : ∀ a, ¬ In r a → σ'.stacks a = σ.stacks a
/-- A program went from `σ` to `σ'`, writing `ws` and touching only the slice `r`, which may still be used. -/
structure Post (r : Ref) (D : Nat → Stack) (σ σ' : State) (ws : List Store.Write) : Prop where
  held : Held σ' r D
  frame : Frame r σ σ'
  bytes : σ'.bytes = applyAll σ.bytes ws
/-- `s` is a pointer made from `r`. -/
structure Child (σ : State) (r : Ref) (D : Nat → Stack) (s : Ref) (D' : Nat → Stack) : Prop where
  lo : r.ptr ≤ s.ptr
  hi : s.ptr + s.len ≤ r.ptr + r.len
  tag : r.tag < s.tag
  below : ∀ a, In s a → ∃ j, D' a = j ++ D a ∧ Above σ r.tag j
  held : Held σ s D'

theorem Child.sub {σ r D s D'} (h : Child σ r D s D') {a : Nat} (ha : In s a) : In r a := by
  have := h.lo; have := h.hi
  unfold In at *; omega

theorem Dead.mono {σ σ' : State} {i : Item} (h : Dead σ i) (ha : ∀ c ∈ σ'.active, c ∈ σ.active ∨ σ.nextCall ≤ c) (hc : σ.nextCall ≤ σ'.nextCall) :
    Dead σ' i := fun c hp => ⟨Nat.lt_of_lt_of_le (h c hp).1 hc, fun hm => by
    rcases ha c hm with h' | h'
    · exact (h c hp).2 h'
    · exact absurd (h c hp).1 (Nat.not_lt.mpr h')⟩
theorem Above.mono {σ σ' : State} {t u : Tag} {j : Stack} (h : Above σ t j) (ht : u ≤ t)
    (ha : ∀ c ∈ σ'.active, c ∈ σ.active ∨ σ.nextCall ≤ c) (hc : σ.nextCall ≤ σ'.nextCall)
    (hn : σ.nextTag ≤ σ'.nextTag) : Above σ' u j :=
  fun i hi => ⟨Nat.lt_of_le_of_lt ht (h i hi).1, Nat.lt_of_lt_of_le (h i hi).2.1 hn, (h i hi).2.2.mono ha hc⟩
theorem Frame.above {r σ σ'} (f : Frame r σ σ') {t : Tag} {j : Stack} (h : Above σ t j) : Above σ' t j :=
  h.mono (Nat.le_refl _) (fun c hc => .inl (f.active ▸ hc)) f.calls f.tags
theorem Above.append {σ t j k} (h : Above σ t j) (h' : Above σ t k) : Above σ t (j ++ k) := fun i hi => by
  rcases List.mem_append.mp hi with hi | hi
  · exact h i hi
  · exact h' i hi

theorem Held.access {σ r D} (h : Held σ r D) {a : Nat} (ha : In r a) : access σ.active .write r.tag (σ.stacks a) = some (D a) := by
  obtain ⟨p, tl, ht⟩ := h.top a ha
  obtain ⟨j, hs, hj⟩ := h.stack a ha
  rw [hs, ht]
  exact access_write (g := ⟨.unique, r.tag, p⟩) rfl hj

theorem Post.trans {r D σ σ1 σ2 ws ws'} (h : Post r D σ σ1 ws) (h' : Post r D σ1 σ2 ws') : Post r D σ σ2 (ws ++ ws') where
  held := h'.held
  frame := ⟨h'.frame.active.trans h.frame.active, Nat.le_trans h.frame.tags h'.frame.tags, Nat.le_trans h.frame.calls h'.frame.calls,
    fun a ha => (h'.frame.outside a ha).trans (h.frame.outside a ha)⟩
  bytes := by rw [h'.bytes, h.bytes, Store.applyAll_append]

theorem Child.back {r D σ σ' s D' ws} (h : Held σ r D) (c : Child σ r D s D') (p : Post s D' σ σ' ws) : Post r D σ σ' ws where
  held := {
    top := h.top
    stack := fun a ha => by
      by_cases hs : In s a
      · obtain ⟨j, e, hj⟩ := p.held.stack a hs
        obtain ⟨k, e', hk⟩ := c.below a hs
        refine ⟨j ++ k, by rw [e, e', List.append_assoc], Above.append ?_ (p.frame.above hk)⟩
        exact hj.mono (Nat.le_of_lt c.tag) (fun _ h => .inl h) (Nat.le_refl _) (Nat.le_refl _)
      · obtain ⟨j, e, hj⟩ := h.stack a ha
        exact ⟨j, by rw [p.frame.outside a hs, e], p.frame.above hj⟩
    tag := Nat.lt_of_lt_of_le h.tag p.frame.tags
    calls := p.held.calls }
  frame := ⟨p.frame.active, p.frame.tags, p.frame.calls, fun a ha => p.frame.outside a fun hs => ha (c.sub hs)⟩
  bytes := p.bytes

theorem Child.trans {r D σ σ' s D' u D''} (c : Child σ r D s D') (f : Frame s σ σ') (c' : Child σ' s D' u D'') : Child σ' r D u D'' where
  lo := Nat.le_trans c.lo c'.lo
  hi := Nat.le_trans c'.hi c.hi
  tag := Nat.lt_trans c.tag c'.tag
  below := fun a ha => by
    obtain ⟨j, e, hj⟩ := c'.below a ha
    obtain ⟨k, e', hk⟩ := c.below a (c'.sub ha)
    exact ⟨j ++ k, by rw [e, e', List.append_assoc],
      Above.append (hj.mono (Nat.le_of_lt c.tag) (fun _ h => .inl h) (Nat.le_refl _) (Nat.le_refl _)) (f.above hk)⟩
  held := c'.held

/-- `&mut r[..]`. -/
theorem retag_child {σ r D} (h : Held σ r D) {p n : Nat} (lo : r.ptr ≤ p) (hi : p + n ≤ r.ptr + r.len) :
    ∃ σ' D', retag .unique none r.tag p n σ = .ok (σ.nextTag, σ') ∧ Post r D σ σ' [] ∧ Child σ' r D ⟨p, n, σ.nextTag⟩ D' := by
  have hd : Dead { σ with nextTag := σ.nextTag + 1 } ⟨.unique, σ.nextTag, none⟩ := fun c hc => by cases hc
  refine ⟨_, fun a => ⟨.unique, σ.nextTag, none⟩ :: D a, retag_unique D fun a ha => h.access ⟨by omega, by omega⟩, ⟨⟨h.top, ?_, ?_, h.calls⟩, ?_, rfl⟩, ?_⟩
  · intro a ha
    by_cases hs : p ≤ a ∧ a < p + n
    · refine ⟨[⟨.unique, σ.nextTag, none⟩], if_pos hs, ?_⟩
      intro i hi
      rw [List.mem_singleton] at hi; subst hi
      exact ⟨h.tag, Nat.lt_succ_self _, hd⟩
    · obtain ⟨j, e, hj⟩ := h.stack a ha
      exact ⟨j, (if_neg hs).trans e, hj.mono (Nat.le_refl _) (fun _ h => .inl h) (Nat.le_refl _) (Nat.le_succ _)⟩
  · exact Nat.lt_succ_of_lt h.tag
  · exact ⟨rfl, Nat.le_succ _, Nat.le_refl _, fun a ha => if_neg fun hs => ha ⟨by omega, by omega⟩⟩
  · refine ⟨lo, hi, h.tag, fun a _ => ⟨[⟨.unique, σ.nextTag, none⟩], rfl, ?_⟩, ⟨fun a _ => ⟨_, _, rfl⟩, ?_, Nat.lt_succ_self _, h.calls⟩⟩
    · intro i hi
      rw [List.mem_singleton] at hi; subst hi
      exact ⟨h.tag, Nat.lt_succ_self _, hd⟩
    · intro a ha
      exact ⟨[], if_pos ha, fun i hi => by cases hi⟩

theorem reborrow_child {σ r D} (h : Held σ r D) :
    ∃ σ' D', reborrow r σ = .ok (⟨r.ptr, r.len, σ.nextTag⟩, σ') ∧ Post r D σ σ' [] ∧ Child σ' r D ⟨r.ptr, r.len, σ.nextTag⟩ D' := by
  obtain ⟨σ', D', e, p, c⟩ := retag_child h (Nat.le_refl _) (Nat.le_refl _)
  exact ⟨σ', D', (bind_run e).trans rfl, p, c⟩

/-! ### Calls -/

/-- The state in which the body of a function called with the argument `r` starts. -/
def entered (σ : State) (r : Ref) (st : Nat → Stack) : State :=
  { σ with
    active := σ.nextCall :: σ.active
    nextCall := σ.nextCall + 1
    nextTag := σ.nextTag + 1
    stacks := fun a => if In r a then ⟨.unique, σ.nextTag, some σ.nextCall⟩ :: st a else σ.stacks a }

theorem call_argument {α : Type} {f : Ref → B α} {σ : State} {r : Ref} (st : Nat → Stack)
    (h : ∀ a, In r a → access (σ.nextCall :: σ.active) .write r.tag (σ.stacks a) = some (st a)) :
    (call fun c => do let r ← argument c r; f r) σ =
      (do let (x, σ') ← f ⟨r.ptr, r.len, σ.nextTag⟩ (entered σ r st); .ok (x, { σ' with active := σ.active })) := by
  show ((argument σ.nextCall r >>= f) _ >>= _) = _
  rw [bind_run (f := argument σ.nextCall r) (x := ⟨r.ptr, r.len, σ.nextTag⟩) (σ' := entered σ r st)]
  rw [argument]
  exact (bind_run (retag_unique (σ := { σ with active := σ.nextCall :: σ.active, nextCall := σ.nextCall + 1 }) st h)).trans rfl

theorem held_entered {σ : State} {r : Ref} {st : Nat → Stack} (hc : ∀ c ∈ σ.active, c < σ.nextCall) :
    Held (entered σ r st) ⟨r.ptr, r.len, σ.nextTag⟩ fun a => ⟨.unique, σ.nextTag, some σ.nextCall⟩ :: st a where
  top := fun a _ => ⟨_, _, rfl⟩
  stack := fun a ha => ⟨[], if_pos ha, fun i hi => by cases hi⟩
  tag := Nat.lt_succ_self _
  calls := fun c h => by
    rcases List.mem_cons.mp h with h | h
    · subst h; exact Nat.lt_succ_self _
    · exact Nat.lt_succ_of_lt (hc c h)

/-- What a call leaves behind: the stacks that a write through `r` would leave (`st`) and above them items of dead pointers made by the
call. -/
structure Left (r : Ref) (st : Nat → Stack) (σ σ' : State) (ws : List Store.Write) : Prop where
  inside : ∀ a, In r a → ∃ j, σ'.stacks a = j ++ st a ∧ ∀ i ∈ j, σ.nextTag ≤ i.tag ∧ i.tag < σ'.nextTag ∧ Dead σ' i
  frame : Frame r σ σ'
  bytes : σ'.bytes = applyAll σ.bytes ws

theorem leave {σ σ' : State} {r : Ref} {st : Nat → Stack} {ws} (hc : ∀ c ∈ σ.active, c < σ.nextCall)
    (p : Post ⟨r.ptr, r.len, σ.nextTag⟩ (fun a => ⟨.unique, σ.nextTag, some σ.nextCall⟩ :: st a) (entered σ r st) σ' ws) :
    Left r st σ { σ' with active := σ.active } ws where
  inside := fun a ha => by
    obtain ⟨j, e, hj⟩ := p.held.stack a ha
    refine ⟨j ++ [⟨.unique, σ.nextTag, some σ.nextCall⟩], by rw [List.append_assoc]; exact e, ?_⟩
    intro i hi
    rcases List.mem_append.mp hi with hi | hi
    · refine ⟨Nat.le_of_lt (hj i hi).1, (hj i hi).2.1, (hj i hi).2.2.mono (fun c h => .inl ?_) (Nat.le_refl _)⟩
      rw [p.frame.active]; exact List.mem_cons_of_mem _ h
    · rw [List.mem_singleton] at hi; subst hi
      refine ⟨Nat.le_refl _, p.frame.tags, fun c h => ?_⟩
      obtain rfl : σ.nextCall = c := Option.some.inj h
      exact ⟨p.frame.calls, fun h => absurd (hc _ h) (Nat.lt_irrefl _)⟩
  frame := {
    active := rfl
    tags := Nat.le_trans (Nat.le_succ _) p.frame.tags
    calls := Nat.le_trans (Nat.le_succ _) p.frame.calls
    outside := fun a ha => (p.frame.outside a ha).trans (if_neg ha) }
  bytes := p.bytes

theorem Left.post {σ σ' r D ws} (h : Held σ r D) (l : Left r D σ σ' ws) : Post r D σ σ' ws where
  held := {
    top := h.top
    stack := fun a ha => by
      obtain ⟨j, e, hj⟩ := l.inside a ha
      exact ⟨j, e, fun i hi => ⟨Nat.lt_of_lt_of_le h.tag (hj i hi).1, (hj i hi).2⟩⟩
    tag := Nat.lt_of_lt_of_le h.tag l.frame.tags
    calls := fun c hc => Nat.lt_of_lt_of_le (h.calls c (l.frame.active ▸ hc)) l.frame.calls }
  frame := l.frame
  bytes := l.bytes

theorem Held.enter {σ r D} (h : Held σ r D) {a : Nat} (ha : In r a) :
    Borrow.access (σ.nextCall :: σ.active) .write r.tag (σ.stacks a) = some (D a) := by
  have h' : Held { σ with active := σ.nextCall :: σ.active, nextCall := σ.nextCall + 1 } r D := {
    top := h.top
    stack := fun a ha => by
      obtain ⟨j, e, hj⟩ := h.stack a ha
      refine ⟨j, e, hj.mono (Nat.le_refl _) (fun c hc => ?_) (Nat.le_succ _) (Nat.le_refl _)⟩
      rcases List.mem_cons.mp hc with h | h
      · subst h; exact .inr (Nat.le_refl _)
      · exact .inl h
    tag := h.tag
    calls := fun c hc => by
      rcases List.mem_cons.mp hc with h' | h'
      · subst h'; exact Nat.lt_succ_self _
      · exact Nat.lt_succ_of_lt (h.calls c h') }
  exact h'.access ha

/-- A call that returns nothing. -/
theorem call_unit {σ r D} {f : Ref → B Unit} {ws} (h : Held σ r D)
    (hf : ∀ σ D t, Held σ ⟨r.ptr, r.len, t⟩ D → ∃ σ', f ⟨r.ptr, r.len, t⟩ σ = .ok ((), σ') ∧ Post ⟨r.ptr, r.len, t⟩ D σ σ' ws) :
    ∃ σ', (call fun c => do let r ← argument c r; f r) σ = .ok ((), σ') ∧ Post r D σ σ' ws := by
  obtain ⟨σ', e, p⟩ := hf (entered σ r D) _ _ (held_entered h.calls)
  refine ⟨{ σ' with active := σ.active }, ?_, (leave h.calls p).post h⟩
  rw [call_argument D fun a ha => h.enter ha, e]; rfl
/-- A call that returns a pointer made from its argument. -/
theorem call_ref {σ r D} {f : Ref → B Ref} (h : Held σ r D) (q : Ref → Prop)
    (hf : ∀ σ D t, Held σ ⟨r.ptr, r.len, t⟩ D → ∃ σ' s D', f ⟨r.ptr, r.len, t⟩ σ = .ok (s, σ') ∧ Post ⟨r.ptr, r.len, t⟩ D σ σ' [] ∧
      Child σ' ⟨r.ptr, r.len, t⟩ D s D' ∧ q s) :
    ∃ σ' s D', (call fun c => do let r ← argument c r; f r) σ = .ok (s, σ') ∧ Post r D σ σ' [] ∧ Child σ' r D s D' ∧ q s := by
  obtain ⟨σ', s, D', e, p, c, hq⟩ := hf (entered σ r D) _ _ (held_entered h.calls)
  refine ⟨{ σ' with active := σ.active }, s, D', ?_, (leave h.calls p).post h, ?_, hq⟩
  · rw [call_argument D fun a ha => h.enter ha, e]; rfl
  · have hm : ∀ {t j}, Above σ' t j → Above { σ' with active := σ.active } t j := fun {t j} h' =>
      h'.mono (Nat.le_refl _) (fun c hc => .inl (by rw [p.frame.active]; exact List.mem_cons_of_mem _ hc)) (Nat.le_refl _) (Nat.le_refl _)
    refine ⟨c.lo, c.hi, Nat.lt_trans h.tag c.tag, fun a ha => ?_, ⟨c.held.top, fun a ha => ?_, c.held.tag, ?_⟩⟩
    · obtain ⟨j, e, hj⟩ := c.below a ha
      refine ⟨j ++ [⟨.unique, σ.nextTag, some σ.nextCall⟩], by rw [List.append_assoc]; exact e, Above.append ?_ ?_⟩
      · exact (hm hj).mono (Nat.le_of_lt h.tag) (fun _ h => .inl h) (Nat.le_refl _) (Nat.le_refl _)
      · intro i hi
        rw [List.mem_singleton] at hi; subst hi
        refine ⟨h.tag, p.frame.tags, fun c h' => ?_⟩
        obtain rfl : σ.nextCall = c := Option.some.inj h'
        exact ⟨p.frame.calls, fun h' => absurd (h.calls _ h') (Nat.lt_irrefl _)⟩
    · obtain ⟨j, e, hj⟩ := c.held.stack a ha
      exact ⟨j, e, hm hj⟩
    · exact fun c hc => Nat.lt_of_lt_of_le (h.calls c hc) (Nat.le_trans (Nat.le_succ _) p.frame.calls)

/-! ### Writing -/

theorem bytes_write {n : Nat} (m : Nat → U8) (p : Nat) (v : Vector U8 n) :
    (fun a => if h : p ≤ a ∧ a < p + n then v[a - p]'(by omega) else m a) = applyAll m (writesAt p v.toList) := by
  funext a
  rw [Store.applyAll_writesAt]
  simp only [Vector.length_toList]
  by_cases h : p ≤ a ∧ a < p + n
  · rw [dif_pos h, if_pos h, List.getD_eq_getElem?_getD, List.getElem?_eq_getElem (by rw [Vector.length_toList]; omega)]
    simp
  · rw [dif_neg h, if_neg h]

theorem write_ok {n : Nat} {t : Tag} {p : Nat} {v : Vector U8 n} {σ : State} (st : Nat → Stack)
    (h : ∀ a, p ≤ a ∧ a < p + n → access σ.active .write t (σ.stacks a) = some (st a)) :
    write t p v σ = .ok ((), { σ with
      stacks := fun a => if p ≤ a ∧ a < p + n then st a else σ.stacks a
      bytes := applyAll σ.bytes (writesAt p v.toList) }) := by
  unfold write
  rw [onRange_ok st h, ← bytes_write]; rfl

theorem Held.write {σ r D} (h : Held σ r D) {n p : Nat} (v : Vector U8 n) (lo : r.ptr ≤ p) (hi : p + n ≤ r.ptr + r.len) :
    ∃ σ', Borrow.write r.tag p v σ = .ok ((), σ') ∧ Post r D σ σ' (writesAt p v.toList) := by
  refine ⟨_, write_ok D fun a ha => h.access ⟨by omega, by omega⟩, ⟨⟨h.top, ?_, h.tag, h.calls⟩, ⟨rfl, Nat.le_refl _, Nat.le_refl _, ?_⟩, rfl⟩⟩
  · intro a ha
    by_cases hs : p ≤ a ∧ a < p + n
    · exact ⟨[], if_pos hs, fun i hi => by cases hi⟩
    · obtain ⟨j, e, hj⟩ := h.stack a ha
      exact ⟨j, (if_neg hs).trans e, hj⟩
  · exact fun a ha => if_neg fun hs => ha ⟨by omega, by omega⟩

/-- The raw pointer `p` to the slice `r` has just been made. -/
structure Raw (σ : State) (r : Ref) (D : Nat → Stack) (p : Tag) : Prop where
  stack : ∀ a, In r a → ∃ j, σ.stacks a = ⟨.sharedRW, p, none⟩ :: (j ++ D a) ∧ Above σ r.tag (⟨.sharedRW, p, none⟩ :: j)
  held : Held σ r D

theorem access_raw (active : List CallId) (p : Tag) (tl : Stack) :
    access active .write p (⟨.sharedRW, p, none⟩ :: tl) = some (⟨.sharedRW, p, none⟩ :: tl) := by
  simp [access, split, Perm.allows, popped, kept]

theorem Raw.write {σ r D p} (h : Raw σ r D p) {n : Nat} (v : Vector U8 n) (hn : n ≤ r.len) :
    ∃ σ', Borrow.write p r.ptr v σ = .ok ((), σ') ∧ Post r D σ σ' (writesAt r.ptr v.toList) := by
  have e := write_ok (σ := σ) (t := p) (p := r.ptr) (v := v) σ.stacks fun a ha => by
    obtain ⟨j, e, _⟩ := h.stack a ⟨by omega, by omega⟩
    rw [e]; exact access_raw _ _ _
  simp only [ite_self] at e
  exact ⟨_, e, ⟨⟨h.held.top, h.held.stack, h.held.tag, h.held.calls⟩, ⟨rfl, Nat.le_refl _, Nat.le_refl _, fun _ _ => rfl⟩, rfl⟩⟩

theorem retag_raw {t : Tag} {p n : Nat} {σ : State} (c : Option CallId) (st : Nat → Stack)
    (h : ∀ a, p ≤ a ∧ a < p + n → σ.stacks a = ⟨.unique, t, c⟩ :: st a) :
    retag .sharedRW none t p n σ = .ok (σ.nextTag, { σ with
      stacks := fun a => if p ≤ a ∧ a < p + n then ⟨.sharedRW, σ.nextTag, none⟩ :: σ.stacks a else σ.stacks a
      nextTag := σ.nextTag + 1 }) := by
  unfold retag
  rw [onRange_ok (fun a => ⟨.sharedRW, σ.nextTag, none⟩ :: σ.stacks a)]
  · rfl
  · intro a ha
    rw [h a ha]
    simp [derive, split, Perm.allows, popped, kept, isRW]

theorem as_mut_ptr_ok {σ r D} (h : Held σ r D) : ∃ σ' p, as_mut_ptr r σ = .ok (p, σ') ∧ Post r D σ σ' [] ∧ Raw σ' r D p := by
  obtain ⟨σ1, D1, e1, p1, c1⟩ := reborrow_child h
  generalize ht : σ.nextTag = t at *
  have h1 := c1.held
  -- the state in the call, and after it
  have e2 := call_argument (f := fun r => retag .sharedRW none r.tag r.ptr r.len) (r := ⟨r.ptr, r.len, t⟩) D1 fun a ha => h1.enter ha
  have e3 := retag_raw (σ := entered σ1 ⟨r.ptr, r.len, t⟩ D1) (t := σ1.nextTag) (p := r.ptr) (n := r.len) (some σ1.nextCall) D1
    fun a ha => if_pos ha
  rw [e3] at e2
  have hin : ∀ a, In r a → ∃ j, (entered σ1 ⟨r.ptr, r.len, t⟩ D1).stacks a = j ++ D a ∧
      Above { σ1 with nextTag := σ1.nextTag + 1 + 1, nextCall := σ1.nextCall + 1 } r.tag (⟨.sharedRW, σ1.nextTag + 1, none⟩ :: j) := by
    intro a ha
    obtain ⟨j, e, hj⟩ := c1.below a ha
    refine ⟨⟨.unique, σ1.nextTag, some σ1.nextCall⟩ :: j, ?_, ?_⟩
    · rw [List.cons_append, ← e]; exact if_pos ha
    · have ht1 : r.tag < σ1.nextTag := Nat.lt_of_lt_of_le h.tag p1.frame.tags
      intro i hi
      rcases List.mem_cons.mp hi with hi | hi
      · subst hi; exact ⟨Nat.lt_succ_of_lt ht1, Nat.lt_succ_self _, fun c h => by cases h⟩
      · rcases List.mem_cons.mp hi with hi | hi
        · subst hi
          refine ⟨ht1, Nat.lt_succ_of_lt (Nat.lt_succ_self _), fun c h' => ?_⟩
          obtain rfl : σ1.nextCall = c := Option.some.inj h'
          exact ⟨Nat.lt_succ_self _, fun h' => absurd (h1.calls _ h') (Nat.lt_irrefl _)⟩
        · exact (hj.mono (σ' := { σ1 with nextTag := σ1.nextTag + 1 + 1, nextCall := σ1.nextCall + 1 }) (Nat.le_refl _)
            (fun _ h => .inl h) (Nat.le_succ _) (Nat.le_add_right _ 2)) i hi
  have hh : Held { σ1 with nextTag := σ1.nextTag + 1 + 1, nextCall := σ1.nextCall + 1, stacks := fun a => if r.ptr ≤ a ∧ a < r.ptr + r.len then
        ⟨.sharedRW, σ1.nextTag + 1, none⟩ :: (entered σ1 ⟨r.ptr, r.len, t⟩ D1).stacks a else (entered σ1 ⟨r.ptr, r.len, t⟩ D1).stacks a } r D := by
    refine ⟨h.top, fun a ha => ?_, Nat.lt_succ_of_lt (Nat.lt_succ_of_lt (Nat.lt_of_lt_of_le h.tag p1.frame.tags)), ?_⟩
    · obtain ⟨j, e, hj⟩ := hin a ha
      exact ⟨_ :: j, by rw [List.cons_append, ← e]; exact if_pos ha, hj⟩
    · exact fun c hc => Nat.lt_succ_of_lt (h1.calls c hc)
  refine ⟨_, _, (bind_run e1).trans e2, ⟨hh, ⟨p1.frame.active, ?_, ?_, ?_⟩, p1.bytes⟩, ⟨fun a ha => ?_, hh⟩⟩
  · exact Nat.le_trans p1.frame.tags (Nat.le_add_right _ 2)
  · exact Nat.le_trans p1.frame.calls (Nat.le_succ _)
  · exact fun a ha => (if_neg ha).trans ((if_neg ha).trans (p1.frame.outside a ha))
  · obtain ⟨j, e, hj⟩ := hin a ha
    exact ⟨j, (if_pos ha).trans (by rw [e]), hj⟩

theorem raw_write_ok {σ r D} (h : Held σ r D) {n : Nat} (v : Vector U8 n) (hn : n ≤ r.len) :
    ∃ σ', raw_write r v σ = .ok ((), σ') ∧ Post r D σ σ' (writesAt r.ptr v.toList) := by
  obtain ⟨σ1, p, e1, p1, h1⟩ := as_mut_ptr_ok h
  obtain ⟨σ2, e2, p2⟩ := h1.write v hn
  exact ⟨σ2, (bind_run e1).trans e2, p1.trans p2⟩

theorem require_ok {b : Bool} (h : b = true) (σ : State) : require b σ = .ok ((), σ) := by subst h; rfl
theorem require_fail {b : Bool} (h : b = false) (σ : State) : require b σ = .error .panic := by subst h; rfl

theorem index_mut_ok {σ r D} (h : Held σ r D) {lo hi : Nat} (h1 : lo ≤ hi) (h2 : hi ≤ r.len) :
    ∃ σ' t D', index_mut r lo hi σ = .ok (⟨r.ptr + lo, hi - lo, t⟩, σ') ∧ Post r D σ σ' [] ∧ Child σ' r D ⟨r.ptr + lo, hi - lo, t⟩ D' := by
  obtain ⟨σ1, D1, e1, p1, c1⟩ := reborrow_child h
  obtain ⟨σ2, s, D2, e2, p2, c2, u, rfl⟩ := call_ref (f := fun r => do require (lo ≤ hi ∧ hi ≤ r.len); reborrow ⟨r.ptr + lo, hi - lo, r.tag⟩)
    c1.held (fun s => ∃ u, s = ⟨r.ptr + lo, hi - lo, u⟩) fun σ D t h' => by
      obtain ⟨σ', D', e, p, c⟩ := retag_child h' (p := r.ptr + lo) (n := hi - lo) (Nat.le_add_right _ _) (by show _ ≤ r.ptr + r.len; omega)
      exact ⟨σ', _, D', (bind_run (require_ok (decide_eq_true ⟨h1, h2⟩) σ)).trans ((bind_run e).trans rfl), p, c, _, rfl⟩
  obtain ⟨σ3, D3, e3, p3, c3⟩ := reborrow_child c2.held
  refine ⟨σ3, _, D3, (bind_run e1).trans ((bind_run e2).trans e3), ?_, ?_⟩
  · exact p1.trans (c1.back p1.held (p2.trans (c2.back p2.held p3)))
  · exact c1.trans (p2.trans (c2.back p2.held p3)).frame (c2.trans p3.frame c3)

theorem copy_from_slice_ok {σ r D} (h : Held σ r D) (v : Vector U8 r.len) :
    ∃ σ', copy_from_slice r v σ = .ok ((), σ') ∧ Post r D σ σ' (writesAt r.ptr v.toList) := by
  obtain ⟨σ1, D1, e1, p1, c1⟩ := reborrow_child h
  obtain ⟨σ2, e2, p2⟩ := call_unit (ws := writesAt r.ptr v.toList)
    (f := fun r' => do require (r'.len = r.len); let p ← as_mut_ptr r'; write p r'.ptr v)
    c1.held fun σ D t h' => by
      obtain ⟨σ', e, p⟩ := raw_write_ok h' v (Nat.le_refl _)
      exact ⟨σ', (bind_run (require_ok (decide_eq_true rfl) σ)).trans e, p⟩
  exact ⟨σ2, (bind_run e1).trans e2, p1.trans (c1.back p1.held p2)⟩

theorem set_ok {σ r D} (h : Held σ r D) {i : Nat} (hi : i < r.len) (x : U8) :
    ∃ σ', set r i x σ = .ok ((), σ') ∧ Post r D σ σ' [(r.ptr + i, x)] := by
  obtain ⟨σ', e, p⟩ := h.write #v[x] (p := r.ptr + i) (Nat.le_add_right _ _) (by omega)
  exact ⟨σ', (bind_run (require_ok (decide_eq_true hi) σ)).trans e, p⟩

theorem store_u32_be_ok {σ r D} (h : Held σ r D) (hl : 4 ≤ r.len) (w : U32) :
    ∃ σ', store_u32_be r w σ = .ok ((), σ') ∧ Post r D σ σ' (Store.store_u32_be ⟨r.ptr, r.len⟩ w).writes := by
  unfold store_u32_be
  refine call_unit h fun σ D t h => ?_
  obtain ⟨σ1, e1, p1⟩ := set_ok h (i := 0) (by show 0 < r.len; omega) ((w >>> 24).setWidth 8)
  obtain ⟨σ2, e2, p2⟩ := set_ok p1.held (i := 1) (by show 1 < r.len; omega) ((w >>> 16).setWidth 8)
  obtain ⟨σ3, e3, p3⟩ := set_ok p2.held (i := 2) (by show 2 < r.len; omega) ((w >>> 8).setWidth 8)
  obtain ⟨σ4, e4, p4⟩ := set_ok p3.held (i := 3) (by show 3 < r.len; omega) (w.setWidth 8)
  refine ⟨σ4, (bind_run e1).trans ((bind_run e2).trans ((bind_run e3).trans e4)), ?_⟩
  have := ((p1.trans p2).trans p3).trans p4
  unfold Store.store_u32_be
  rw [Store.bind_ok (Store.set_ok (by show 0 < r.len; omega) _), Store.bind_ok (Store.set_ok (by show 1 < r.len; omega) _),
    Store.bind_ok (Store.set_ok (by show 2 < r.len; omega) _), Store.set_ok (by show 3 < r.len; omega)]
  exact this

/-! ### store_to -/

/-- The laws of `store_to`: what it does after it has taken its argument. -/
class LawfulBorrow (T : Type) {n : outParam Nat} [AesVec T n] [LawfulVec T] [StoreTo T] : Prop where
  law : ∀ x : T, ∃ f : Ref → B Unit, (∀ r, StoreTo.store_to x r = call fun c => do let r ← argument c r; f r) ∧
    (∀ σ D r, Held σ r D → n ≤ r.len → ∃ σ', f r σ = .ok ((), σ') ∧ Post r D σ σ' (writesAt r.ptr (view x).toList)) ∧
    (∀ σ r, r.len < n → f r σ = .error .panic)

theorem LawfulBorrow.ok {T : Type} {n : Nat} [AesVec T n] [LawfulVec T] [StoreTo T] [LawfulBorrow T] (x : T) {σ r D} (h : Held σ r D)
    (hl : n ≤ r.len) : ∃ σ', StoreTo.store_to x r σ = .ok ((), σ') ∧ Post r D σ σ' (writesAt r.ptr (view x).toList) := by
  obtain ⟨f, hf, h1, _⟩ := LawfulBorrow.law x
  rw [hf]
  exact call_unit h fun σ D t h' => h1 σ D _ h' hl

theorem require_len_ok {k n : Nat} (h : n ≤ k) (σ : State) : require (k ≥ n) σ = .ok ((), σ) := require_ok (decide_eq_true h) σ
theorem require_len_short {k n : Nat} (h : k < n) (σ : State) : require (k ≥ n) σ = .error .panic :=
  require_fail (decide_eq_false (Nat.not_le.mpr h)) σ

theorem law_raw {n : Nat} (v : Vector U8 n) : ∃ f : Ref → B Unit,
    (∀ r, (call fun c => do let dst ← argument c r; require (dst.len ≥ n); raw_write dst v) = call fun c => do let r ← argument c r; f r) ∧
    (∀ σ D r, Held σ r D → n ≤ r.len → ∃ σ', f r σ = .ok ((), σ') ∧ Post r D σ σ' (writesAt r.ptr v.toList)) ∧
    (∀ σ r, r.len < n → f r σ = .error .panic) := by
  refine ⟨fun dst => do require (dst.len ≥ n); raw_write dst v, fun _ => rfl, fun σ D r h hl => ?_, fun σ r h => bind_fail (require_len_short h σ)⟩
  obtain ⟨σ', e, p⟩ := raw_write_ok h v hl
  exact ⟨σ', (bind_run (require_len_ok hl σ)).trans e, p⟩

theorem store_at {σ r D} (h : Held σ r D) {k : Nat} (hk : k + 4 ≤ r.len) (w : U32) :
    ∃ σ', (do store_u32_be (← index_mut r k r.len) w : B Unit) σ = .ok ((), σ') ∧ Post r D σ σ' (writesAt (r.ptr + k) (toBe 4 w).toList) := by
  obtain ⟨σ1, t, D1, e1, p1, c1⟩ := index_mut_ok h (lo := k) (hi := r.len) (by omega) (Nat.le_refl _)
  obtain ⟨σ2, e2, p2⟩ := store_u32_be_ok c1.held (by show 4 ≤ r.len - k; omega) w
  rw [Store.store_word _ _ (by show 4 ≤ r.len - k; omega)] at p2
  exact ⟨σ2, (bind_run e1).trans e2, p1.trans (c1.back p1.held p2)⟩

theorem bind_run_assoc {α β γ : Type} {f : B α} {g : α → B β} {k : β → B γ} {σ σ' : State} {y : β} (h : (f >>= g) σ = .ok (y, σ')) :
    (f >>= fun x => g x >>= k) σ = k y σ' := by
  rw [← bind_assoc]; exact bind_run h

instance : LawfulBorrow Table.Block where
  law x := by
    refine ⟨fun dst => do
      require (dst.len ≥ 16)
      store_u32_be (← reborrow dst) x.w0
      store_u32_be (← index_mut dst 4 dst.len) x.w1
      store_u32_be (← index_mut dst 8 dst.len) x.w2
      store_u32_be (← index_mut dst 12 dst.len) x.w3, fun _ => rfl, fun σ D r h hl => ?_, fun σ r h => bind_fail (require_len_short h σ)⟩
    obtain ⟨σ0, D0, e0, p0, c0⟩ := reborrow_child h
    obtain ⟨σ1, e1, p1⟩ := store_u32_be_ok c0.held (by show 4 ≤ r.len; omega) x.w0
    rw [Store.store_word _ _ (by show 4 ≤ r.len; omega)] at p1
    have q1 := p0.trans (c0.back p0.held p1)
    obtain ⟨σ2, e2, p2⟩ := store_at q1.held (k := 4) (by omega) x.w1
    obtain ⟨σ3, e3, p3⟩ := store_at p2.held (k := 8) (by omega) x.w2
    obtain ⟨σ4, e4, p4⟩ := store_at p3.held (k := 12) (by omega) x.w3
    refine ⟨σ4, (bind_run (require_len_ok hl σ)).trans ((bind_run e0).trans ((bind_run e1).trans
      ((bind_run_assoc e2).trans ((bind_run_assoc e3).trans e4)))), ?_⟩
    have := ((q1.trans p2).trans p3).trans p4
    show Post _ _ _ _ (writesAt r.ptr (Table.view' x).toList)
    rw [Table.view'_toList]
    simp only [Store.writesAt_append, List.append_assoc, Vector.length_toList, List.nil_append] at this ⊢
    exact this
instance (e : Endian) : LawfulBorrow (Bitslice.Block e) where
  law x := by
    refine ⟨fun dst => do require (dst.len ≥ 16); copy_from_slice (← index_mut dst 0 16) (toNe e 16 x.val),
      fun _ => rfl, fun σ D r h hl => ?_, fun σ r h => bind_fail (require_len_short h σ)⟩
    obtain ⟨σ1, t, D1, e1, p1, c1⟩ := index_mut_ok h (lo := 0) (hi := 16) (by omega) hl
    obtain ⟨σ2, e2, p2⟩ := copy_from_slice_ok c1.held (toNe e 16 x.val)
    exact ⟨σ2, (bind_run (require_len_ok hl σ)).trans ((bind_run e1).trans e2), p1.trans (c1.back p1.held p2)⟩
instance : LawfulBorrow X86.Block where
  law x := law_raw x.val
instance (is32 : Bool) : LawfulBorrow (Arm.Block is32) where
  law x := law_raw x.val
instance : LawfulBorrow Riscv64.Block where
  law x := law_raw (Riscv64.memory x)
instance : LawfulBorrow Riscv32.Block where
  law x := by
    have := law_raw (Riscv32.memory x)
    rw [Riscv32.memory_eq] at this
    obtain ⟨f, h0, h1, h2⟩ := this
    refine ⟨f, fun r => ?_, h1, h2⟩
    rw [← h0, ← Riscv32.memory_eq]; rfl
instance : LawfulBorrow NiX2.X2 where
  law x := law_raw x.val
instance : LawfulBorrow NiX4.X4 where
  law x := law_raw x.val

theorem law_halves {U : Type} {n : Nat} [AesVec U n] [LawfulVec U] [StoreTo U] [LawfulBorrow U] (a b : U) : ∃ f : Ref → B Unit,
    (∀ r, (call fun c => do
      let dst ← argument c r
      require (dst.len ≥ n + n)
      StoreTo.store_to a (← index_mut dst 0 n)
      StoreTo.store_to b (← index_mut dst n dst.len)) = call fun c => do let r ← argument c r; f r) ∧
    (∀ σ D r, Held σ r D → n + n ≤ r.len → ∃ σ', f r σ = .ok ((), σ') ∧ Post r D σ σ' (writesAt r.ptr (view a ++ view b).toList)) ∧
    (∀ σ r, r.len < n + n → f r σ = .error .panic) := by
  refine ⟨fun dst => do
      require (dst.len ≥ n + n)
      StoreTo.store_to a (← index_mut dst 0 n)
      StoreTo.store_to b (← index_mut dst n dst.len), fun _ => rfl, fun σ D r h hl => ?_, fun σ r h => bind_fail (require_len_short h σ)⟩
  obtain ⟨σ1, t1, D1, e1, p1, c1⟩ := index_mut_ok h (lo := 0) (hi := n) (by omega) (by omega)
  obtain ⟨σ2, e2, p2⟩ := LawfulBorrow.ok a c1.held (by show n ≤ n - 0; omega)
  have q2 := p1.trans (c1.back p1.held p2)
  obtain ⟨σ3, t3, D3, e3, p3, c3⟩ := index_mut_ok q2.held (lo := n) (hi := r.len) (by omega) (Nat.le_refl _)
  obtain ⟨σ4, e4, p4⟩ := LawfulBorrow.ok b c3.held (by show n ≤ r.len - n; omega)
  refine ⟨σ4, (bind_run (require_len_ok hl σ)).trans ((bind_run e1).trans ((bind_run e2).trans ((bind_run e3).trans e4))), ?_⟩
  have := q2.trans (p3.trans (c3.back p3.held p4))
  rw [Vector.toList_append, Store.writesAt_append, Vector.length_toList]
  simpa using this

instance {B : Type} [AesBlock B] [LawfulVec B] [StoreTo B] [LawfulBorrow B] : LawfulBorrow (DefaultX2.X2 B) where
  law x := law_halves x.f0 x.f1
instance {B X2 : Type} [AesBlock B] [LawfulVec B] [AesBlockX2 B X2] [LawfulVec X2] [StoreTo X2] [LawfulBorrow X2] :
    LawfulBorrow (DefaultX4.X4 X2) where
  law x := law_halves x.f0 x.f1

instance (t : Target) : LawfulBorrow t.Block :=
  match t with
  | .table => inferInstanceAs (LawfulBorrow Table.Block)
  | .bitslice e => inferInstanceAs (LawfulBorrow (Bitslice.Block e))
  | .x86 | .x86Vaes | .x86Vaes512 => inferInstanceAs (LawfulBorrow X86.Block)
  | .arm is32 => inferInstanceAs (LawfulBorrow (Arm.Block is32))
  | .riscv64 => inferInstanceAs (LawfulBorrow Riscv64.Block)
  | .riscv32 => inferInstanceAs (LawfulBorrow Riscv32.Block)
instance (t : Target) : LawfulBorrow t.X2 :=
  match t with
  | .table => inferInstanceAs (LawfulBorrow (DefaultX2.X2 Table.Block))
  | .bitslice e => inferInstanceAs (LawfulBorrow (DefaultX2.X2 (Bitslice.Block e)))
  | .x86 => inferInstanceAs (LawfulBorrow (DefaultX2.X2 X86.Block))
  | .x86Vaes | .x86Vaes512 => inferInstanceAs (LawfulBorrow NiX2.X2)
  | .arm is32 => inferInstanceAs (LawfulBorrow (DefaultX2.X2 (Arm.Block is32)))
  | .riscv64 => inferInstanceAs (LawfulBorrow (DefaultX2.X2 Riscv64.Block))
  | .riscv32 => inferInstanceAs (LawfulBorrow (DefaultX2.X2 Riscv32.Block))
instance (t : Target) : LawfulBorrow t.X4 :=
  match t with
  | .table => inferInstanceAs (LawfulBorrow (DefaultX4.X4 (DefaultX2.X2 Table.Block)))
  | .bitslice e => inferInstanceAs (LawfulBorrow (DefaultX4.X4 (DefaultX2.X2 (Bitslice.Block e))))
  | .x86 => inferInstanceAs (LawfulBorrow (DefaultX4.X4 (DefaultX2.X2 X86.Block)))
  | .x86Vaes => inferInstanceAs (LawfulBorrow (DefaultX4.X4 NiX2.X2))
  | .x86Vaes512 => inferInstanceAs (LawfulBorrow NiX4.X4)
  | .arm is32 => inferInstanceAs (LawfulBorrow (DefaultX4.X4 (DefaultX2.X2 (Arm.Block is32))))
  | .riscv64 => inferInstanceAs (LawfulBorrow (DefaultX4.X4 (DefaultX2.X2 Riscv64.Block)))
  | .riscv32 => inferInstanceAs (LawfulBorrow (DefaultX4.X4 (DefaultX2.X2 Riscv32.Block)))
end Aes.Borrow
