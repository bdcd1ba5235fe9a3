import Verif.Proofs.BorrowStore
/-! Reading through pointers under the borrow stacks of Spec/Borrows.lean: proofs. -/
namespace Aes.Borrow
open Rust AesSpec

/-- The pointer `r` may read its slice, and there are only `&` above it. -/
structure HeldR (σ : State) (r : Ref) : Prop where
  stack : ∀ a, In r a → ∃ j g tl, σ.stacks a = j ++ g :: tl ∧ g.tag = r.tag ∧ g.perm.allows .read = true ∧
    ∀ i ∈ j, i.tag ≠ r.tag ∧ i.perm = .sharedRO
  tag : r.tag < σ.nextTag
/-- A program went from `σ` to `σ'`, changing no byte and touching only the slice `r`. Instead of the stacks of `σ` there were `st`, and `&`
made meanwhile are above them. -/
structure LeftR (r : Ref) (st : Nat → Stack) (σ σ' : State) : Prop where
  inside : ∀ a, In r a → ∃ j, σ'.stacks a = j ++ st a ∧ ∀ i ∈ j, i.perm = .sharedRO ∧ σ.nextTag ≤ i.tag ∧ i.tag < σ'.nextTag ∧
    ∀ c, i.protector = some c → σ.nextCall ≤ c ∧ c < σ'.nextCall
  frame : Frame r σ σ'
  bytes : σ'.bytes = σ.bytes
abbrev Ext (r : Ref) (σ σ' : State) : Prop := LeftR r σ.stacks σ σ'

theorem Ext.refl (r : Ref) (σ : State) : Ext r σ σ :=
  ⟨fun _ _ => ⟨[], rfl, fun i hi => by cases hi⟩, ⟨rfl, Nat.le_refl _, Nat.le_refl _, fun _ _ => rfl⟩, rfl⟩
/-- The tags may differ, the addresses not. -/
theorem LeftR.retag {r r' : Ref} {st σ σ'} (h : LeftR r st σ σ') (h1 : r'.ptr = r.ptr) (h2 : r'.len = r.len) : LeftR r' st σ σ' := by
  have hi : ∀ a, In r' a ↔ In r a := fun a => by unfold In; rw [h1, h2]
  exact ⟨fun a ha => h.inside a ((hi a).mp ha), ⟨h.frame.active, h.frame.tags, h.frame.calls, fun a ha => h.frame.outside a fun h' => ha ((hi a).mpr h')⟩,
    h.bytes⟩
theorem LeftR.trans {r st σ σ1 σ2} (h : LeftR r st σ σ1) (h' : Ext r σ1 σ2) : LeftR r st σ σ2 where
  inside := fun a ha => by
    obtain ⟨j, e, hj⟩ := h.inside a ha
    obtain ⟨k, e', hk⟩ := h'.inside a ha
    refine ⟨k ++ j, by rw [e', e, List.append_assoc], fun i hi => ?_⟩
    rcases List.mem_append.mp hi with hi | hi
    · exact ⟨(hk i hi).1, Nat.le_trans h.frame.tags (hk i hi).2.1, (hk i hi).2.2.1, fun c hc =>
        ⟨Nat.le_trans h.frame.calls ((hk i hi).2.2.2 c hc).1, ((hk i hi).2.2.2 c hc).2⟩⟩
    · exact ⟨(hj i hi).1, (hj i hi).2.1, Nat.lt_of_lt_of_le (hj i hi).2.2.1 h'.frame.tags, fun c hc =>
        ⟨((hj i hi).2.2.2 c hc).1, Nat.lt_of_lt_of_le ((hj i hi).2.2.2 c hc).2 h'.frame.calls⟩⟩
  frame := ⟨h'.frame.active.trans h.frame.active, Nat.le_trans h.frame.tags h'.frame.tags, Nat.le_trans h.frame.calls h'.frame.calls,
    fun a ha => (h'.frame.outside a ha).trans (h.frame.outside a ha)⟩
  bytes := h'.bytes.trans h.bytes
theorem HeldR.ext {σ σ' r} (h : HeldR σ r) (e : Ext r σ σ') : HeldR σ' r where
  stack := fun a ha => by
    obtain ⟨j, g, tl, e1, h1, h2, h3⟩ := h.stack a ha
    obtain ⟨k, e2, h4⟩ := e.inside a ha
    refine ⟨k ++ j, g, tl, by rw [e2, e1, List.append_assoc], h1, h2, fun i hi => ?_⟩
    rcases List.mem_append.mp hi with hi | hi
    · exact ⟨Nat.ne_of_gt (Nat.lt_of_lt_of_le h.tag (h4 i hi).2.1), (h4 i hi).1⟩
    · exact h3 i hi
  tag := Nat.lt_of_lt_of_le h.tag e.frame.tags

theorem access_read {A : List CallId} {g : Item} {j tl : Stack} (hg : g.perm.allows .read = true) (hj : ∀ i ∈ j, i.tag ≠ g.tag ∧ i.perm = .sharedRO) :
    access A .read g.tag (j ++ g :: tl) = some (j ++ g :: tl) := by
  unfold access
  rw [split_append hg fun i hi => (hj i hi).1]
  simp only
  rw [if_neg]
  · have : j.map disable = j := by
      conv => rhs; rw [← List.map_id j]
      refine List.map_congr_left fun i hi => ?_
      unfold disable
      rw [(hj i hi).2, if_neg (by decide)]; rfl
    rw [this]
  · simp only [List.any_eq_true, not_exists, not_and]
    intro i hi
    rw [(hj i hi).2]; simp

theorem HeldR.access {σ r} (h : HeldR σ r) (A : List CallId) {a : Nat} (ha : In r a) : access A .read r.tag (σ.stacks a) = some (σ.stacks a) := by
  obtain ⟨j, g, tl, e, ht, hg, hj⟩ := h.stack a ha
  rw [e, ← ht]
  exact access_read hg fun i hi => ⟨by rw [ht]; exact (hj i hi).1, (hj i hi).2⟩

theorem retag_shared {c : Option CallId} {t : Tag} {p n : Nat} {σ : State} (st : Nat → Stack)
    (h : ∀ a, p ≤ a ∧ a < p + n → Borrow.access σ.active .read t (σ.stacks a) = some (st a)) :
    retag .sharedRO c t p n σ = .ok (σ.nextTag, { σ with
      stacks := fun a => if p ≤ a ∧ a < p + n then ⟨.sharedRO, σ.nextTag, c⟩ :: st a else σ.stacks a
      nextTag := σ.nextTag + 1 }) := by
  unfold Borrow.retag
  rw [onRange_ok (fun a => ⟨.sharedRO, σ.nextTag, c⟩ :: st a)]
  · rfl
  · intro a ha
    simp only [derive, h a ha]; rfl

/-- `&r[..]`. -/
theorem HeldR.retag {σ r} (h : HeldR σ r) : ∃ σ', Borrow.retag .sharedRO none r.tag r.ptr r.len σ = .ok (σ.nextTag, σ') ∧ Ext r σ σ' ∧
    HeldR σ' ⟨r.ptr, r.len, σ.nextTag⟩ := by
  refine ⟨_, retag_shared σ.stacks fun a ha => h.access _ ha, ⟨fun a ha => ⟨[⟨.sharedRO, σ.nextTag, none⟩], if_pos ha, fun i hi => ?_⟩,
    ⟨rfl, Nat.le_succ _, Nat.le_refl _, fun a ha => if_neg ha⟩, rfl⟩,
    ⟨fun a ha => ⟨[], ⟨.sharedRO, σ.nextTag, none⟩, σ.stacks a, if_pos ha, rfl, rfl, fun i hi => by cases hi⟩, Nat.lt_succ_self _⟩⟩
  rw [List.mem_singleton] at hi; subst hi
  exact ⟨rfl, Nat.le_refl _, Nat.lt_succ_self _, fun c hc => by cases hc⟩

/-- The state in which the body of a function called with the argument `r` starts. -/
def enteredR (σ : State) (r : Ref) (st : Nat → Stack) : State :=
  { σ with
    active := σ.nextCall :: σ.active
    nextCall := σ.nextCall + 1
    nextTag := σ.nextTag + 1
    stacks := fun a => if In r a then ⟨.sharedRO, σ.nextTag, some σ.nextCall⟩ :: st a else σ.stacks a }

theorem call_shared {α : Type} {f : Ref → B α} {σ : State} {r : Ref} (st : Nat → Stack)
    (h : ∀ a, In r a → access (σ.nextCall :: σ.active) .read r.tag (σ.stacks a) = some (st a)) :
    (call fun c => do let r ← argument_shared c r; f r) σ =
      (do let (x, σ') ← f ⟨r.ptr, r.len, σ.nextTag⟩ (enteredR σ r st); .ok (x, { σ' with active := σ.active })) := by
  show ((argument_shared σ.nextCall r >>= f) _ >>= _) = _
  rw [bind_run (f := argument_shared σ.nextCall r) (x := ⟨r.ptr, r.len, σ.nextTag⟩) (σ' := enteredR σ r st)]
  rw [argument_shared]
  exact (bind_run (retag_shared (σ := { σ with active := σ.nextCall :: σ.active, nextCall := σ.nextCall + 1 }) st h)).trans rfl

theorem heldR_entered (σ : State) (r : Ref) (st : Nat → Stack) : HeldR (enteredR σ r st) ⟨r.ptr, r.len, σ.nextTag⟩ where
  stack := fun a ha => ⟨[], _, st a, if_pos ha, rfl, rfl, fun i hi => by cases hi⟩
  tag := Nat.lt_succ_self _

theorem leaveR {σ σ' : State} {r : Ref} {st : Nat → Stack} (p : Ext ⟨r.ptr, r.len, σ.nextTag⟩ (enteredR σ r st) σ') :
    LeftR r st σ { σ' with active := σ.active } where
  inside := fun a ha => by
    obtain ⟨j, e, hj⟩ := p.inside a ha
    refine ⟨j ++ [⟨.sharedRO, σ.nextTag, some σ.nextCall⟩], ?_, fun i hi => ?_⟩
    · rw [List.append_assoc]; exact e.trans (congrArg (j ++ ·) (if_pos ha))
    · rcases List.mem_append.mp hi with hi | hi
      · exact ⟨(hj i hi).1, Nat.le_of_succ_le (hj i hi).2.1, (hj i hi).2.2.1, fun c hc => ⟨Nat.le_of_succ_le ((hj i hi).2.2.2 c hc).1, ((hj i hi).2.2.2 c hc).2⟩⟩
      · rw [List.mem_singleton] at hi; subst hi
        refine ⟨rfl, Nat.le_refl _, p.frame.tags, fun c hc => ?_⟩
        obtain rfl : σ.nextCall = c := Option.some.inj hc
        exact ⟨Nat.le_refl _, p.frame.calls⟩
  frame := {
    active := rfl
    tags := Nat.le_trans (Nat.le_succ _) p.frame.tags
    calls := Nat.le_trans (Nat.le_succ _) p.frame.calls
    outside := fun a ha => (p.frame.outside a ha).trans (if_neg ha) }
  bytes := p.bytes

theorem as_ptr_ok {σ r} (h : HeldR σ r) : ∃ σ' p, as_ptr r σ = .ok (p, σ') ∧ Ext r σ σ' ∧ HeldR σ' ⟨r.ptr, r.len, p⟩ := by
  obtain ⟨σ', e, p, h'⟩ := (heldR_entered σ r σ.stacks).retag
  refine ⟨{ σ' with active := σ.active }, _, ?_, leaveR p, ⟨h'.stack, h'.tag⟩⟩
  unfold as_ptr
  rw [call_shared (f := fun r => Borrow.retag .sharedRO none r.tag r.ptr r.len) σ.stacks fun a ha => h.access _ ha, e]
  rfl

/-- The bytes at this address. -/
def peek (m : Nat → U8) (p n : Nat) : Vector U8 n := Vector.ofFn fun i => m (p + i)

theorem HeldR.read {σ r} (h : HeldR σ r) {p n : Nat} (lo : r.ptr ≤ p) (hi : p + n ≤ r.ptr + r.len) :
    Borrow.read r.tag p n σ = .ok (peek σ.bytes p n, σ) := by
  unfold Borrow.read
  rw [onRange_ok σ.stacks fun a ha => h.access _ ⟨by omega, by omega⟩]
  simp only [ite_self]
  rfl

theorem array_body {σ r} (h : HeldR σ r) {n offset : Nat} (hl : offset + n ≤ r.len) :
    ∃ σ', (do let p ← as_ptr r; Borrow.read p (r.ptr + offset) n : B (Vector U8 n)) σ = .ok (peek σ.bytes (r.ptr + offset) n, σ') ∧ Ext r σ σ' := by
  obtain ⟨σ', p, e, x, h'⟩ := as_ptr_ok h
  refine ⟨σ', (bind_run e).trans ?_, x⟩
  rw [h'.read (p := r.ptr + offset) (n := n) (Nat.le_add_right _ _) (by show _ ≤ r.ptr + r.len; omega), x.bytes]

theorem array_from_slice_left {σ : State} {r : Ref} (st : Nat → Stack) {n offset : Nat} (hl : offset + n ≤ r.len)
    (h : ∀ a, In r a → access (σ.nextCall :: σ.active) .read r.tag (σ.stacks a) = some (st a)) :
    ∃ σ', array_from_slice n r offset σ = .ok (peek σ.bytes (r.ptr + offset) n, σ') ∧ LeftR r st σ σ' := by
  obtain ⟨σ', e, x⟩ := array_body (heldR_entered σ r st) (n := n) (offset := offset) hl
  refine ⟨{ σ' with active := σ.active }, ?_, leaveR x⟩
  unfold array_from_slice
  rw [call_shared (f := fun r => do let p ← as_ptr r; Borrow.read p (r.ptr + offset) n) st h, e]
  rfl
theorem try_from_slice_left {σ : State} {r : Ref} (st : Nat → Stack) (n : Nat)
    (h : ∀ a, In r a → access (σ.nextCall :: σ.active) .read r.tag (σ.stacks a) = some (st a)) :
    ∃ σ', try_from_slice n r σ = .ok (if n ≤ r.len then some (peek σ.bytes r.ptr n) else none, σ') ∧ LeftR r st σ σ' := by
  by_cases hl : n ≤ r.len
  · obtain ⟨σ', e, x⟩ := array_from_slice_left (enteredR σ r st).stacks (n := n) (offset := 0) (r := ⟨r.ptr, r.len, σ.nextTag⟩)
      (by show 0 + n ≤ r.len; omega) fun a ha => (heldR_entered σ r st).access _ ha
    refine ⟨{ σ' with active := σ.active }, ?_, leaveR x⟩
    unfold try_from_slice
    rw [call_shared (f := fun value => if value.len ≥ n then do pure (some (← array_from_slice n value 0)) else pure none) st h]
    simp only [ge_iff_le, if_pos hl]
    rw [bind_run e]; rfl
  · refine ⟨_, ?_, leaveR (Ext.refl _ _)⟩
    unfold try_from_slice
    rw [call_shared (f := fun value => if value.len ≥ n then do pure (some (← array_from_slice n value 0)) else pure none) st h]
    simp only [ge_iff_le, if_neg hl]
    rfl

/-- `try_from` after its argument was taken. -/
def try_tail {T : Type} {n : Nat} [AesVec T n] (value : Ref) : B (Except Nat T) := do
  match ← try_from_slice n value with
  | some v => do pure (.ok (← liftM (AesVec.from_bytes (T := T) v)))
  | none => pure (.error value.len)
theorem try_tail_left {T : Type} {n : Nat} [AesVec T n] {σ : State} {r : Ref} (st : Nat → Stack) {y : Except Nat T}
    (hy : Aes.try_from (peek σ.bytes r.ptr r.len).toList = .ok y)
    (h : ∀ a, In r a → access (σ.nextCall :: σ.active) .read r.tag (σ.stacks a) = some (st a)) :
    ∃ σ', try_tail (T := T) r σ = .ok (y, σ') ∧ LeftR r st σ σ' := by
  obtain ⟨σ', e, l⟩ := try_from_slice_left st n h
  refine ⟨σ', ?_, l⟩
  unfold try_tail
  rw [bind_run e]
  unfold Aes.try_from Aes.try_from_slice at hy
  rw [Vector.length_toList] at hy
  by_cases hl : n ≤ r.len
  · rw [if_pos hl] at hy ⊢
    have : Aes.array_from_slice n (peek σ.bytes r.ptr r.len).toList 0 = .ok (peek σ.bytes r.ptr n) := by
      unfold Aes.array_from_slice rawRead
      rw [dif_pos (by rw [Vector.length_toList]; omega)]
      refine congrArg Except.ok ?_
      apply Vector.ext; intro i hi
      simp [peek]
    rw [this] at hy
    have hy : ((AesVec.from_bytes (peek σ.bytes r.ptr n) : M T) >>= fun t => pure (Except.ok t) : M (Except Nat T)) = .ok y := hy
    show (liftM (AesVec.from_bytes (T := T) _) >>= _ : B _) σ' = _
    cases hx : (AesVec.from_bytes (peek σ.bytes r.ptr n) : M T) with
    | error f => rw [hx] at hy; cases hy
    | ok x =>
      rw [hx] at hy
      rw [bind_run (x := x) (σ' := σ') rfl]
      exact congrArg (fun z => Except.ok (z, σ')) (Except.ok.inj hy)
  · rw [if_neg hl] at hy ⊢
    exact congrArg (fun z => Except.ok (z, σ')) (Except.ok.inj hy)

theorem try_from_left {T : Type} {n : Nat} [AesVec T n] {σ : State} {r : Ref} (st : Nat → Stack) {y : Except Nat T}
    (hy : Aes.try_from (peek σ.bytes r.ptr r.len).toList = .ok y)
    (h : ∀ a, In r a → access (σ.nextCall :: σ.active) .read r.tag (σ.stacks a) = some (st a)) :
    ∃ σ', try_from (T := T) r σ = .ok (y, σ') ∧ LeftR r st σ σ' := by
  obtain ⟨σ', e, x⟩ := try_tail_left (T := T) (σ := enteredR σ r st) (r := ⟨r.ptr, r.len, σ.nextTag⟩) (enteredR σ r st).stacks hy
    fun a ha => (heldR_entered σ r st).access _ ha
  refine ⟨{ σ' with active := σ.active }, ?_, leaveR x⟩
  show (call fun c => do let r ← argument_shared c r; try_tail r) σ = _
  rw [call_shared st h, e]
  rfl

theorem from_ref_left {T : Type} {n : Nat} [AesVec T n] {σ : State} {r : Ref} (st : Nat → Stack) {y : T} (hn : r.len = n)
    (hy : AesVec.from_bytes (peek σ.bytes r.ptr n) = .ok y)
    (h : ∀ a, In r a → access (σ.nextCall :: σ.active) .read r.tag (σ.stacks a) = some (st a)) :
    ∃ σ', from_ref (T := T) r σ = .ok (y, σ') ∧ LeftR r st σ σ' := by
  refine ⟨_, ?_, leaveR (Ext.refl _ _)⟩
  show (call fun c => do let r ← argument_shared c r; (do liftM (AesVec.from_bytes (T := T) (← read r.tag r.ptr n)))) σ = _
  rw [call_shared st h, bind_run ((heldR_entered σ r st).read (Nat.le_refl _) (by show r.ptr + n ≤ r.ptr + r.len; omega))]
  show (AesVec.from_bytes (peek σ.bytes r.ptr n) >>= _) >>= _ = _
  rw [hy]; rfl

theorem shared_ub {α : Type} {f : Ref → B α} {σ : State} (w : σ.WellFormed) {r : Ref} {a : Nat} (ha : In r a)
    (h : access σ.active .read r.tag (σ.stacks a) = none) : (call fun c => do let r ← argument_shared c r; f r) σ = .error .ub := by
  show ((argument_shared σ.nextCall r >>= f) _ >>= _) = _
  rw [bind_fail (e := .ub)]
  · rfl
  · unfold argument_shared
    apply bind_fail
    unfold Borrow.retag
    rw [onRange_ub ha]
    · rfl
    · show Option.map _ (access (σ.nextCall :: σ.active) .read r.tag (σ.stacks a)) = none
      rw [access_congr fun i hi => guarded_next w hi, h]; rfl
theorem try_from_ub {T : Type} {n : Nat} [AesVec T n] {σ : State} (w : σ.WellFormed) {r : Ref} {a : Nat} (ha : In r a)
    (h : access σ.active .read r.tag (σ.stacks a) = none) : try_from (T := T) r σ = .error .ub := by
  exact shared_ub w ha h
theorem from_ref_ub {T : Type} {n : Nat} [AesVec T n] {σ : State} (w : σ.WellFormed) {r : Ref} {a : Nat} (ha : In r a)
    (h : access σ.active .read r.tag (σ.stacks a) = none) : from_ref (T := T) r σ = .error .ub := by
  exact shared_ub w ha h

theorem read_ok {t : Tag} {p n : Nat} {σ : State} (st : Nat → Stack)
    (h : ∀ a, p ≤ a ∧ a < p + n → access σ.active .read t (σ.stacks a) = some (st a)) :
    Borrow.read t p n σ = .ok (peek σ.bytes p n, { σ with stacks := fun a => if p ≤ a ∧ a < p + n then st a else σ.stacks a }) := by
  unfold Borrow.read
  rw [onRange_ok st h]; rfl

theorem access_read_mem {A : List CallId} {t : Tag} {s st : Stack} (h : access A .read t s = some st) {i : Item} (hi : i ∈ st) :
    ∃ i' ∈ s, i.tag = i'.tag ∧ i.protector = i'.protector := by
  unfold access at h
  cases hs : split .read t s with
  | none => rw [hs] at h; cases h
  | some p =>
    obtain ⟨ab, g, be⟩ := p
    rw [hs] at h
    simp only at h
    split at h
    · cases h
    · obtain rfl := Option.some.inj h
      obtain ⟨rfl, -, -, -⟩ := split_eq hs
      rcases List.mem_append.mp hi with hi | hi
      · obtain ⟨j, hj, rfl⟩ := List.mem_map.mp hi
        refine ⟨j, List.mem_append_left _ hj, ?_, ?_⟩ <;> unfold disable <;> split <;> rfl
      · exact ⟨i, List.mem_append_right _ hi, rfl, rfl⟩

theorem LeftR.wellFormed {r st σ σ'} (w : σ.WellFormed) (l : LeftR r st σ σ')
    (h : ∀ a, In r a → ∀ i ∈ st a, ∃ i' ∈ σ.stacks a, i.tag = i'.tag ∧ i.protector = i'.protector) : σ'.WellFormed := by
  have key : ∀ a, ∀ i ∈ σ'.stacks a, (∃ i' ∈ σ.stacks a, i.tag = i'.tag ∧ i.protector = i'.protector) ∨
      (i.tag < σ'.nextTag ∧ ∀ c, i.protector = some c → c < σ'.nextCall) := by
    intro a i hi
    by_cases ha : In r a
    · obtain ⟨j, e, hj⟩ := l.inside a ha
      rw [e] at hi
      rcases List.mem_append.mp hi with hi | hi
      · exact .inr ⟨(hj i hi).2.2.1, fun c hc => ((hj i hi).2.2.2 c hc).2⟩
      · exact .inl (h a ha i hi)
    · rw [l.frame.outside a ha] at hi; exact .inl ⟨i, hi, rfl, rfl⟩
  refine ⟨fun c hc => ?_, fun a i hi => ?_, fun a i hi c hc => ?_⟩
  · rw [l.frame.active] at hc; exact Nat.lt_of_lt_of_le (w.calls c hc) l.frame.calls
  · rcases key a i hi with ⟨i', h', e, _⟩ | h'
    · rw [e]; exact Nat.lt_of_lt_of_le (w.tags a i' h') l.frame.tags
    · exact h'.1
  · rcases key a i hi with ⟨i', h', _, e⟩ | h'
    · exact Nat.lt_of_lt_of_le (w.protectors a i' h' c (e ▸ hc)) l.frame.calls
    · exact h'.2 c hc
theorem LeftR.allows {r st σ σ'} (w : σ.WellFormed) (l : LeftR r st σ σ') (u : Tag) (k : Access) (a : Nat) (hu : u < σ.nextTag) :
    σ'.allows k u a = (access σ.active k u (if In r a then st a else σ.stacks a)).isSome := by
  unfold State.allows
  rw [l.frame.active]
  by_cases ha : In r a
  · obtain ⟨j, e, hj⟩ := l.inside a ha
    rw [e, if_pos ha, access_append fun i hi => ⟨Nat.ne_of_gt (Nat.lt_of_lt_of_le hu (hj i hi).2.1), ?_⟩]
    unfold guarded
    cases hp : i.protector with
    | none => rfl
    | some c =>
      simp only [List.contains_eq_mem, decide_eq_false_iff_not]
      exact fun h2 => absurd (w.calls c h2) (Nat.not_lt.mpr ((hj i hi).2.2.2 c hp).1)
  · rw [l.frame.outside a ha, if_neg ha]

/-! ### Local arrays -/

theorem peek_write {n : Nat} (m : Nat → U8) (p : Nat) (v : Vector U8 n) {k q : Nat} (h : k + q ≤ n) :
    peek (fun a => if h : p ≤ a ∧ a < p + n then v[a - p]'(by omega) else m a) (p + k) q = Vector.ofFn fun i : Fin q => v[k + i.val] := by
  apply Vector.ext
  intro i hi
  simp only [peek, Vector.getElem_ofFn]
  rw [dif_pos ⟨by omega, by omega⟩]
  congr 1
  omega

/-- After `allocate`. -/
def allocated {n : Nat} (σ : State) (p : Nat) (v : Vector U8 n) : State :=
  { σ with
    stacks := fun a => if p ≤ a ∧ a < p + n then [⟨.unique, σ.nextTag, none⟩] else σ.stacks a
    bytes := fun a => if h : p ≤ a ∧ a < p + n then v[a - p]'(by omega) else σ.bytes a
    nextTag := σ.nextTag + 1 }
theorem allocate_ok {n : Nat} {σ : State} {p : Nat} {v : Vector U8 n} (h : ∀ a, p ≤ a ∧ a < p + n → σ.stacks a = []) :
    allocate p v σ = .ok (σ.nextTag, allocated σ p v) := by
  unfold allocate
  rw [if_pos fun i hi => h _ ⟨by omega, by omega⟩]; rfl
theorem heldR_allocated {n : Nat} (σ : State) (p : Nat) (v : Vector U8 n) : HeldR (allocated σ p v) ⟨p, n, σ.nextTag⟩ where
  stack := fun a ha => ⟨[], ⟨.unique, σ.nextTag, none⟩, [], if_pos ha, rfl, rfl, fun i hi => by cases hi⟩
  tag := Nat.lt_succ_self _

/-- What is left of a local variable at `p`: nothing but its bytes. -/
structure Freed (p n : Nat) (σ σ' : State) : Prop where
  stacks : σ'.stacks = σ.stacks
  active : σ'.active = σ.active
  tags : σ.nextTag ≤ σ'.nextTag
  calls : σ.nextCall ≤ σ'.nextCall
  bytes : ∀ a, ¬ (p ≤ a ∧ a < p + n) → σ'.bytes a = σ.bytes a

theorem deallocate_ok {n : Nat} {σ σ' : State} {p : Nat} (j : Nat → Stack)
    (hj : ∀ a, p ≤ a ∧ a < p + n → σ'.stacks a = j a ++ [⟨.unique, σ.nextTag, none⟩] ∧ ∀ i ∈ j a, i.tag ≠ σ.nextTag ∧ guarded σ'.active i = false)
    (ho : ∀ a, ¬ (p ≤ a ∧ a < p + n) → σ'.stacks a = σ.stacks a) (hf : ∀ a, p ≤ a ∧ a < p + n → σ.stacks a = []) :
    deallocate σ.nextTag p n σ' = .ok ((), { σ' with stacks := σ.stacks }) := by
  unfold deallocate
  rw [onRange_ok fun _ => []]
  · congr 3
    funext a
    by_cases ha : p ≤ a ∧ a < p + n
    · rw [if_pos ha, hf a ha]
    · rw [if_neg ha, ho a ha]
  · intro a ha
    obtain ⟨e, h⟩ := hj a ha
    have := access_append (A := σ'.active) (k := .write) (u := σ.nextTag) (j := j a) (s := [⟨.unique, σ.nextTag, none⟩]) fun i hi => h i hi
    rw [← e] at this
    have h2 : (access σ'.active .write σ.nextTag [⟨.unique, σ.nextTag, none⟩]).isSome = true := by
      simp [access, split, Perm.allows, popped, isRW]
    rw [h2] at this
    obtain ⟨y, hy⟩ := Option.isSome_iff_exists.mp this
    simp only [hy]; rfl

theorem free_ext {n : Nat} {σ σ' : State} {p : Nat} {v : Vector U8 n} (hc : ∀ c ∈ σ.active, c < σ.nextCall)
    (hf : ∀ a, p ≤ a ∧ a < p + n → σ.stacks a = []) (x : Ext ⟨p, n, σ.nextTag⟩ (allocated σ p v) σ') :
    ∃ σ'', deallocate σ.nextTag p n σ' = .ok ((), σ'') ∧ Freed p n σ σ'' := by
  have hj : ∀ a, ∃ j, p ≤ a ∧ a < p + n → σ'.stacks a = j ++ [⟨.unique, σ.nextTag, none⟩] ∧ ∀ i ∈ j, i.tag ≠ σ.nextTag ∧ guarded σ'.active i = false := by
    intro a
    by_cases ha : p ≤ a ∧ a < p + n
    · obtain ⟨j, e, h⟩ := x.inside a ha
      refine ⟨j, fun _ => ⟨e.trans (congrArg (j ++ ·) (if_pos ha)), fun i hi => ⟨Nat.ne_of_gt (h i hi).2.1, ?_⟩⟩⟩
      unfold guarded
      cases hp : i.protector with
      | none => rfl
      | some c =>
        have h1 := ((h i hi).2.2.2 c hp).1
        rw [x.frame.active]
        simp only [List.contains_eq_mem, decide_eq_false_iff_not]
        exact fun h2 => absurd (hc c h2) (Nat.not_lt.mpr h1)
    · exact ⟨[], fun h => absurd h ha⟩
  refine ⟨_, deallocate_ok (fun a => (hj a).choose) (fun a ha => (hj a).choose_spec ha)
    (fun a ha => (x.frame.outside a ha).trans (if_neg ha)) hf, ⟨rfl, x.frame.active, Nat.le_of_succ_le x.frame.tags, x.frame.calls, fun a ha => ?_⟩⟩
  show σ'.bytes a = _
  rw [x.bytes]
  exact dif_neg ha

theorem load_local_ok {N : Nat} {σ : State} {p : Nat} (v : Vector U8 N) (hc : ∀ c ∈ σ.active, c < σ.nextCall)
    (hf : ∀ a, p ≤ a ∧ a < p + N → σ.stacks a = []) : ∃ σ', load_local p v σ = .ok (v, σ') ∧ Freed p N σ σ' := by
  obtain ⟨σ1, e1, x1, h1⟩ := (heldR_allocated σ p v).retag
  obtain ⟨σ2, q, e2, x2, h2⟩ := as_ptr_ok h1
  have x := x1.trans (x2.retag rfl rfl)
  obtain ⟨σ3, e3, f⟩ := free_ext hc hf x
  refine ⟨σ3, ?_, f⟩
  unfold load_local
  rw [bind_run (allocate_ok hf), bind_run e1, bind_run e2, bind_run (h2.read (Nat.le_refl _) (Nat.le_refl _)), bind_run e3]
  have : peek σ2.bytes p N = v := by
    rw [x.bytes]
    refine (peek_write σ.bytes p v (k := 0) (q := N) (by omega)).trans ?_
    apply Vector.ext; intro i hi
    simp
  rw [this]; rfl

theorem load_halves_ok {n : Nat} {σ : State} {p : Nat} (v : Vector U8 (n + n)) (hc : ∀ c ∈ σ.active, c < σ.nextCall)
    (hf : ∀ a, p ≤ a ∧ a < p + (n + n) → σ.stacks a = []) :
    ∃ σ', load_halves n p v σ = .ok ((Vector.ofFn fun i : Fin n => v[i.val], Vector.ofFn fun i : Fin n => v[n + i.val]), σ') ∧ Freed p (n + n) σ σ' := by
  have h0 := heldR_allocated σ p v
  obtain ⟨σ1, e1, x1, h1⟩ := h0.retag
  obtain ⟨σ2, e2, x2⟩ := array_from_slice_left σ1.stacks (n := n) (offset := 0) (r := ⟨p, n + n, (allocated σ p v).nextTag⟩)
    (by show 0 + n ≤ n + n; omega) fun a ha => h1.access _ ha
  have y2 : Ext ⟨p, n + n, σ.nextTag⟩ (allocated σ p v) σ2 := x1.trans (x2.retag rfl rfl)
  obtain ⟨σ3, e3, x3, h3⟩ := (h0.ext y2).retag
  obtain ⟨σ4, e4, x4⟩ := array_from_slice_left σ3.stacks (n := n) (offset := n) (r := ⟨p, n + n, σ2.nextTag⟩)
    (Nat.le_refl (n + n)) fun a ha => h3.access _ ha
  have y4 : Ext ⟨p, n + n, σ.nextTag⟩ (allocated σ p v) σ4 := (y2.trans x3).trans (x4.retag rfl rfl)
  obtain ⟨σ5, e5, f⟩ := free_ext hc hf y4
  refine ⟨σ5, ?_, f⟩
  unfold load_halves
  rw [bind_run (allocate_ok hf), bind_run e1, bind_run e2, bind_run e3, bind_run e4, bind_run e5, x1.bytes, x3.bytes, x2.bytes, x1.bytes]
  have a1 := peek_write σ.bytes p v (k := 0) (q := n) (by omega)
  have a2 := peek_write σ.bytes p v (k := n) (q := n) (by omega)
  simp only [Nat.zero_add] at a1
  exact congrArg (fun x => Except.ok (x, σ5)) (Prod.ext a1 a2)
end Aes.Borrow
