import Verif.Proofs.BorrowRead
import Verif.Proofs.Mem
/-! The key expansions under the borrow stacks of Spec/Borrows.lean: proofs. -/
namespace Aes.Borrow
open Rust AesSpec
open Mem (flat4 length_flat4 getElem_flat4)
open Store (applyAll writesAt)

theorem bind_apply {α β : Type} (f : B α) (g : α → B β) (σ : State) : (f >>= g) σ = (f σ >>= fun p => g p.1 p.2) := rfl
theorem pure_apply {α : Type} (x : α) (σ : State) : (pure x : B α) σ = .ok (x, σ) := rfl
theorem lift_apply {α : Type} (m : M α) (σ : State) : (liftM m : B α) σ = (do let x ← m; .ok (x, σ)) := rfl
theorem bind_ok' {α β : Type} (a : α) (f : α → M β) : (Except.ok a >>= f) = f a := rfl

section
variable (e : Endian) (base : Nat) (σ₀ : State) {n : Nat}

/-- `σ₀` with the words `c` at address `base`. -/
def img (c : Vector U32 n) : State :=
  { σ₀ with bytes := fun a => if base ≤ a ∧ a < base + 4 * n then (flat4 e c.toList).getD (a - base) 0 else σ₀.bytes a }

variable {e base σ₀} {t : Tag} (hs : ∀ a, base ≤ a ∧ a < base + 4 * n → ∃ tl, σ₀.stacks a = ⟨.unique, t, none⟩ :: tl) (ht : t < σ₀.nextTag)

theorem getD_flat4 (c : Vector U32 n) (k : Nat) (h : k < 4 * n) :
    (flat4 e c.toList).getD k 0 = (toNe e 4 (c[k / 4]'(by omega)))[k % 4] := by
  rw [List.getD_eq_getElem?_getD, List.getElem?_eq_getElem (by rw [length_flat4, Vector.length_toList]; exact h), Option.getD_some,
    getElem_flat4 _ _ (by rw [Vector.length_toList]; exact h)]
  simp only [Vector.getElem_toList]

theorem peek_img (c : Vector U32 n) (i : Nat) (h : i < n) : peek (img e base σ₀ c).bytes (base + 4 * i) 4 = toNe e 4 c[i] := by
  apply Vector.ext
  intro k hk
  simp only [peek, Vector.getElem_ofFn, img]
  rw [if_pos ⟨by omega, by omega⟩, getD_flat4 c _ (by omega)]
  have h1 : (base + 4 * i + k - base) / 4 = i := by omega
  have h2 : (base + 4 * i + k - base) % 4 = k := by omega
  simp only [h1, h2]

include hs ht in
theorem get_img (c : Vector U32 n) (i : Nat) :
    get e ⟨base, 4 * n, t⟩ i (img e base σ₀ c) = (do let x ← idx c i; .ok (x, img e base σ₀ c)) := by
  have hr : HeldR (img e base σ₀ c) ⟨base, 4 * n, t⟩ := ⟨fun a ha => by
    obtain ⟨tl, h⟩ := hs a ha
    exact ⟨[], _, tl, h, rfl, rfl, fun i hi => by cases hi⟩, ht⟩
  unfold get idx
  by_cases h : i < n
  · rw [if_pos (by show 4 * i + 4 ≤ 4 * n; omega), dif_pos h]
    rw [bind_run (hr.read (p := base + 4 * i) (n := 4) (Nat.le_add_right _ _) (by show _ ≤ base + 4 * n; omega)), peek_img c i h,
      fromNe_toNe e _ (by omega)]
    rfl
  · rw [if_neg (by show ¬ 4 * i + 4 ≤ 4 * n; omega), dif_neg h]; rfl

include hs in
theorem put_img (c : Vector U32 n) (i : Nat) (x : U32) :
    put e ⟨base, 4 * n, t⟩ i x (img e base σ₀ c) = (do let c ← upd c i x; .ok ((), img e base σ₀ c)) := by
  unfold put upd
  by_cases h : i < n
  · rw [if_pos (by show 4 * i + 4 ≤ 4 * n; omega), dif_pos h]
    rw [write_ok (img e base σ₀ c).stacks]
    · simp only [ite_self, bind_ok']
      refine congrArg (fun b => Except.ok ((), b)) ?_
      show State.mk _ _ _ _ _ = State.mk _ _ _ _ _
      congr 1
      funext a
      rw [Store.applyAll_writesAt]
      simp only [Vector.length_toList, img]
      by_cases ha : base ≤ a ∧ a < base + 4 * n
      · simp only [if_pos ha]
        rw [getD_flat4 (c.set i x) _ (by omega)]
        split
        · next hw =>
          have h1 : (a - base) / 4 = i := by omega
          rw [List.getD_eq_getElem?_getD, List.getElem?_eq_getElem (by rw [Vector.length_toList]; omega), Option.getD_some]
          simp only [h1, Vector.getElem_set_self, Vector.getElem_toList]
          congr 1; omega
        · next hw =>
          have h1 : i ≠ (a - base) / 4 := by omega
          rw [getD_flat4 c _ (by omega), Vector.getElem_set_ne _ _ h1]
      · rw [if_neg (by omega)]
        simp only [if_neg ha]
    · intro a ha
      have ha : base + 4 * i ≤ a ∧ a < base + 4 * i + 4 := ha
      obtain ⟨tl, e⟩ := hs a ⟨by omega, by omega⟩
      show access _ _ _ (σ₀.stacks a) = some (σ₀.stacks a)
      rw [e]
      simp [access, split, Perm.allows, popped, kept, isRW]
  · rw [if_neg (by show ¬ 4 * i + 4 ≤ 4 * n; omega), dif_neg h]; rfl

include hs ht in
theorem xorInto_img (c : Vector U32 n) (d a b : Nat) :
    xorInto e ⟨base, 4 * n, t⟩ d a b (img e base σ₀ c) = (do
      let c ← upd c d ((← idx c a) ^^^ (← idx c b))
      .ok ((), img e base σ₀ c)) := by
  unfold xorInto
  simp only [bind_apply, get_img hs ht, put_img hs, bind_assoc, bind_ok']

theorem forM_img {β : Type} (f : β → B Unit) (g : Vector U32 n → β → M (Vector U32 n))
    (h : ∀ c b, f b (img e base σ₀ c) = (do let c ← g c b; .ok ((), img e base σ₀ c))) (l : List β) (c : Vector U32 n) :
    l.forM f (img e base σ₀ c) = (do let c ← l.foldlM g c; .ok ((), img e base σ₀ c)) := by
  induction l generalizing c with
  | nil => rfl
  | cons b l ih =>
    show (f b >>= fun _ => l.forM f) (img e base σ₀ c) = _
    rw [bind_apply, h, List.foldlM_cons]
    simp only [bind_assoc, bind_ok', ih]

include hs in
theorem load_img (key : List U8) (c : Vector U32 n) :
    load e ⟨base, 4 * n, t⟩ key (img e base σ₀ c) = (do let c ← Columns.load_columns e key c; .ok ((), img e base σ₀ c)) := by
  unfold load Columns.load_columns
  refine forM_img _ _ (fun c b => ?_) _ _
  simp only [bind_apply, lift_apply, put_img hs, bind_assoc, bind_ok']
end

section
variable {e : Endian} {base : Nat} {σ₀ : State} {t : Tag}

theorem body_128_img (hs : ∀ a, base ≤ a ∧ a < base + 4 * 44 → ∃ tl, σ₀.stacks a = ⟨.unique, t, none⟩ :: tl) (ht : t < σ₀.nextTag)
    (first) (key : Vector U8 16) :
    body_128 e ⟨base, 4 * 44, t⟩ first key (img e base σ₀ (Vector.replicate 44 0)) =
      (do let c ← Columns.columns_128 first e key; .ok ((), img e base σ₀ c)) := by
  unfold body_128 Columns.columns_128
  rw [bind_apply, load_img hs]
  simp only [bind_assoc, bind_ok']
  refine bind_congr fun c => ?_
  refine forM_img _ _ (fun c i => ?_) _ _
  unfold step_128 Columns.step_128
  simp only [bind_apply, lift_apply, get_img hs ht, put_img hs, xorInto_img hs ht, bind_assoc, bind_ok']
theorem body_192_img (hs : ∀ a, base ≤ a ∧ a < base + 4 * 52 → ∃ tl, σ₀.stacks a = ⟨.unique, t, none⟩ :: tl) (ht : t < σ₀.nextTag)
    (first) (key : Vector U8 24) :
    body_192 e ⟨base, 4 * 52, t⟩ first key (img e base σ₀ (Vector.replicate 52 0)) =
      (do let c ← Columns.columns_192 first e key; .ok ((), img e base σ₀ c)) := by
  unfold body_192 Columns.columns_192
  rw [bind_apply, load_img hs]
  simp only [bind_assoc, bind_ok']
  refine bind_congr fun c => ?_
  rw [bind_apply, forM_img _ (Columns.step_192 first)]
  · simp only [bind_apply, lift_apply, get_img hs ht, put_img hs, xorInto_img hs ht, bind_assoc, bind_ok']
  · intro c i
    unfold step_192 Columns.step_192
    simp only [bind_apply, lift_apply, get_img hs ht, put_img hs, xorInto_img hs ht, bind_assoc, bind_ok']
theorem body_256_img (hs : ∀ a, base ≤ a ∧ a < base + 4 * 60 → ∃ tl, σ₀.stacks a = ⟨.unique, t, none⟩ :: tl) (ht : t < σ₀.nextTag)
    (first tail fifth) (key : Vector U8 32) :
    body_256 e ⟨base, 4 * 60, t⟩ first tail fifth key (img e base σ₀ (Vector.replicate 60 0)) =
      (do let c ← Columns.columns_256 first fifth tail e key; .ok ((), img e base σ₀ c)) := by
  unfold body_256 Columns.columns_256
  rw [bind_apply, load_img hs]
  simp only [bind_assoc, bind_ok']
  refine bind_congr fun c => ?_
  rw [bind_apply, forM_img _ (Columns.step_256 first fifth)]
  · simp only [bind_apply, lift_apply, get_img hs ht, put_img hs, xorInto_img hs ht, bind_assoc, bind_ok']
  · intro c i
    unfold step_256 Columns.step_256
    simp only [bind_apply, lift_apply, get_img hs ht, put_img hs, xorInto_img hs ht, bind_assoc, bind_ok']
end

theorem img_zero {e : Endian} {base N len : Nat} (hN : 4 * len = 16 * N) {σ : State}
    (h : ∀ a, base ≤ a ∧ a < base + 16 * N → σ.bytes a = 0) : img e base σ (Vector.replicate len 0) = σ := by
  unfold img
  show State.mk _ _ _ _ _ = σ
  obtain ⟨bytes, stacks, active, nextTag, nextCall⟩ := σ
  congr 1
  funext a
  split
  · next ha =>
    rw [getD_flat4 _ _ (by omega), show bytes a = 0 from h a (by omega)]
    have : toNe e 4 (0 : U32) = Vector.replicate 4 0#8 := toNe_zero e 4
    simp only [Vector.getElem_replicate]
    simp only [this, Vector.getElem_replicate]
    rfl
  · rfl

theorem access_read_dead {A : List CallId} {x : Tag} {k : Stack} (h : ∀ i ∈ k, i.tag ≠ x ∧ guarded A i = false) :
    access A .read x (k ++ [⟨.unique, x, none⟩]) = some (k.map disable ++ [⟨.unique, x, none⟩]) := by
  unfold access
  rw [split_append (g := ⟨.unique, x, none⟩) rfl fun i hi => (h i hi).1]
  simp only
  rw [if_neg]
  simp only [List.any_eq_true, not_exists, not_and]
  intro i hi
  rw [(h i hi).2]; simp
theorem tag_disable (i : Item) : (disable i).tag = i.tag := by unfold disable; split <;> rfl
theorem guarded_disable (A : List CallId) (i : Item) : guarded A (disable i) = guarded A i := by unfold disable; split <;> rfl

/-- The end of a local variable: its value is read through its name, and it goes out of scope. -/
theorem read_back {σ σ2 : State} {p n : Nat} (hf : ∀ a, p ≤ a ∧ a < p + n → σ.stacks a = [])
    (ho : ∀ a, ¬ (p ≤ a ∧ a < p + n) → σ2.stacks a = σ.stacks a)
    (h : ∀ a, p ≤ a ∧ a < p + n → ∃ k, σ2.stacks a = k ++ [⟨.unique, σ.nextTag, none⟩] ∧ Above σ2 σ.nextTag k) :
    ∃ σ3 σ4, read σ.nextTag p n σ2 = .ok (peek σ2.bytes p n, σ3) ∧ deallocate σ.nextTag p n σ3 = .ok ((), σ4) ∧ σ4.stacks = σ.stacks ∧
      σ4.active = σ2.active ∧ σ4.bytes = σ2.bytes ∧ σ4.nextTag = σ2.nextTag ∧ σ4.nextCall = σ2.nextCall := by
  have hk : ∀ a, ∃ k, p ≤ a ∧ a < p + n → σ2.stacks a = k ++ [⟨.unique, σ.nextTag, none⟩] ∧
      ∀ i ∈ k, i.tag ≠ σ.nextTag ∧ guarded σ2.active i = false := by
    intro a
    by_cases ha : p ≤ a ∧ a < p + n
    · obtain ⟨k, e, h⟩ := h a ha
      exact ⟨k, fun _ => ⟨e, fun i hi => ⟨Nat.ne_of_gt (h i hi).1, guarded_dead (h i hi).2.2⟩⟩⟩
    · exact ⟨[], fun h => absurd h ha⟩
  let k := fun a => (hk a).choose
  have hk : ∀ a, p ≤ a ∧ a < p + n → σ2.stacks a = k a ++ [⟨.unique, σ.nextTag, none⟩] ∧
      ∀ i ∈ k a, i.tag ≠ σ.nextTag ∧ guarded σ2.active i = false := fun a => (hk a).choose_spec
  have e4 := onRange_ok (p := p) (n := n) (f := access σ2.active .read σ.nextTag) (σ := σ2)
    (fun a => (k a).map disable ++ [⟨.unique, σ.nextTag, none⟩]) fun a ha => by
      rw [(hk a ha).1]; exact access_read_dead (hk a ha).2
  refine ⟨{ σ2 with stacks := fun a => if p ≤ a ∧ a < p + n then (k a).map disable ++ [⟨.unique, σ.nextTag, none⟩] else σ2.stacks a },
    { σ2 with stacks := σ.stacks }, ?_, ?_, rfl, rfl, rfl, rfl, rfl⟩
  · unfold read
    rw [e4]; rfl
  · refine (deallocate_ok (fun a => (k a).map disable) (fun a ha => ⟨if_pos ha, fun i hi => ?_⟩) (fun a ha => ?_) hf).trans rfl
    · obtain ⟨j, hj, rfl⟩ := List.mem_map.mp hi
      rw [tag_disable, guarded_disable]
      exact (hk a ha).2 j hj
    · exact (if_neg ha).trans (ho a ha)

theorem columns_of_ok {σ : State} {x : Tag} {base size len : Nat} (hl : 4 * len = size) (hb : base % 4 = 0)
    (h : Held σ ⟨base, size, x⟩ fun _ => [⟨.unique, x, none⟩]) :
    ∃ σ' t, columns_of x base size len σ = .ok (⟨base, 4 * len, t⟩, σ') ∧ t < σ'.nextTag ∧ σ'.bytes = σ.bytes ∧ Frame ⟨base, size, x⟩ σ σ' ∧
      (∀ a, base ≤ a ∧ a < base + size → (∃ tl, σ'.stacks a = ⟨.unique, t, none⟩ :: tl) ∧
        ∃ k, σ'.stacks a = k ++ [⟨.unique, x, none⟩] ∧ Above σ' x k) := by
  obtain ⟨σ1, p, e1, p1, r1⟩ := as_mut_ptr_ok h
  have e2 := retag_unique (c := none) (σ := σ1) (t := p) (p := base) (n := 4 * len) σ1.stacks fun a ha => by
    obtain ⟨j, e, _⟩ := r1.stack a (by rw [hl] at ha; exact ha)
    rw [e]; exact access_raw _ _ _
  generalize hσ2 : ({ σ1 with
      stacks := fun a => if base ≤ a ∧ a < base + 4 * len then ⟨.unique, σ1.nextTag, none⟩ :: σ1.stacks a else σ1.stacks a
      nextTag := σ1.nextTag + 1 } : State) = σ2 at e2
  have hst2 : ∀ a, base ≤ a ∧ a < base + 4 * len → σ2.stacks a = ⟨.unique, σ1.nextTag, none⟩ :: σ1.stacks a := by
    subst hσ2; intro a ha; exact if_pos ha
  have hn2 : σ2.nextTag = σ1.nextTag + 1 := by subst hσ2; rfl
  have e3 := retag_unique (c := none) (σ := σ2) (t := σ1.nextTag) (p := base) (n := 4 * len) σ2.stacks fun a ha => by
    rw [hst2 a ha]
    simp [access, split, Perm.allows, popped, kept, isRW]
  refine ⟨{ σ2 with
      stacks := fun a => if base ≤ a ∧ a < base + 4 * len then ⟨.unique, σ2.nextTag, none⟩ :: σ2.stacks a else σ2.stacks a
      nextTag := σ2.nextTag + 1 }, σ2.nextTag, ?_, ?_, ?_, ⟨?_, ?_, ?_, ?_⟩, fun a ha => ⟨⟨σ2.stacks a, ?_⟩, ?_⟩⟩
  · unfold columns_of
    rw [bind_run e1, if_pos hb]
    exact (bind_run ((bind_run e2).trans rfl)).trans ((bind_run e3).trans rfl)
  · exact Nat.lt_succ_self _
  · subst hσ2; exact p1.bytes
  · subst hσ2; exact p1.frame.active
  · subst hσ2; exact Nat.le_trans p1.frame.tags (Nat.le_add_right _ 2)
  · subst hσ2; exact p1.frame.calls
  · intro a ha
    have ha' : ¬ (base ≤ a ∧ a < base + 4 * len) := by rw [hl]; exact ha
    refine (if_neg ha').trans ?_
    subst hσ2
    exact (if_neg ha').trans (p1.frame.outside a ha)
  · exact if_pos (by rw [hl]; exact ha)
  · obtain ⟨j, e, hj⟩ := r1.stack a ha
    have ha' : base ≤ a ∧ a < base + 4 * len := by rw [hl]; exact ha
    refine ⟨⟨.unique, σ2.nextTag, none⟩ :: ⟨.unique, σ1.nextTag, none⟩ :: ⟨.sharedRW, p, none⟩ :: j, ?_, ?_⟩
    · refine (if_pos ha').trans ?_
      rw [hst2 a ha', e]; rfl
    · have hx : x < σ1.nextTag := Nat.lt_of_lt_of_le h.tag p1.frame.tags
      intro i hi
      rcases List.mem_cons.mp hi with hi | hi2
      · subst hi; exact ⟨by rw [hn2]; exact Nat.lt_succ_of_lt hx, Nat.lt_succ_self _, fun c hc => by cases hc⟩
      rcases List.mem_cons.mp hi2 with hi | hi3
      · subst hi; exact ⟨hx, by show _ < σ2.nextTag + 1; rw [hn2]; exact Nat.lt_succ_of_lt (Nat.lt_succ_self _), fun c hc => by cases hc⟩
      · subst hσ2
        exact (hj.mono (σ' := { σ1 with nextTag := σ1.nextTag + 1 + 1 }) (Nat.le_refl _) (fun _ h => .inl h) (Nat.le_refl _)
          (Nat.le_add_right _ 2)) i hi3

theorem expanding_ok {σ : State} {N len base : Nat} {body : Ref → B Unit} {e : Endian} {c : Vector U32 len} (hN : 4 * len = 16 * N)
    (hb : base % 4 = 0) (hc : ∀ c ∈ σ.active, c < σ.nextCall) (hf : ∀ a, base ≤ a ∧ a < base + 16 * N → σ.stacks a = [])
    (hbody : ∀ (σ₀ : State) (t : Tag), (∀ a, base ≤ a ∧ a < base + 4 * len → ∃ tl, σ₀.stacks a = ⟨.unique, t, none⟩ :: tl) → t < σ₀.nextTag →
      body ⟨base, 4 * len, t⟩ (img e base σ₀ (Vector.replicate len 0)) = .ok ((), img e base σ₀ c)) :
    ∃ σ', expanding N len base body σ = .ok (Vector.ofFn fun i : Fin (16 * N) => (flat4 e c.toList).getD i.val 0, σ') ∧ Freed base (16 * N) σ σ' := by
  have h1 : Held (allocated σ base (Vector.replicate (16 * N) (0 : U8))) ⟨base, 16 * N, σ.nextTag⟩ fun _ => [⟨.unique, σ.nextTag, none⟩] :=
    ⟨fun a _ => ⟨_, _, rfl⟩, fun a ha => ⟨[], if_pos ha, fun i hi => by cases hi⟩, Nat.lt_succ_self _, hc⟩
  obtain ⟨σ2, t, e2, ht, hb2, f2, hs2⟩ := columns_of_ok hN hb h1
  have hz : img e base σ2 (Vector.replicate len 0) = σ2 := img_zero hN fun a ha => by
    rw [hb2]
    refine (dif_pos ha).trans ?_
    rw [Vector.getElem_replicate]
  have e3 := hbody σ2 t (fun a ha => (hs2 a (by omega)).1) ht
  rw [hz] at e3
  obtain ⟨σ3, σ4, e4, e5, hst, hac, hby, htg, hcl⟩ := read_back (σ := σ) (σ2 := img e base σ2 c) (p := base) (n := 16 * N) hf
    (fun a ha => (f2.outside a ha).trans (if_neg ha)) fun a ha => (hs2 a ha).2
  refine ⟨σ4, ?_, ⟨hst, hac.trans f2.active, ?_, ?_, ?_⟩⟩
  · unfold expanding
    rw [bind_run (allocate_ok hf), bind_run e2, bind_run e3, bind_run e4, bind_run e5]
    rw [pure_apply]
    refine congrArg (fun v => Except.ok (v, σ4)) ?_
    apply Vector.ext
    intro i hi
    simp only [peek, Vector.getElem_ofFn, img]
    rw [if_pos ⟨by omega, by omega⟩, Nat.add_sub_cancel_left]
  · rw [htg]; exact Nat.le_of_succ_le f2.tags
  · rw [hcl]; exact f2.calls
  · intro a ha
    rw [hby]
    refine (if_neg (by omega)).trans ?_
    rw [hb2]
    exact dif_neg ha

theorem blocks_flat4 {e : Endian} {N : Nat} (c : Vector U32 (4 * N)) :
    blocks (Vector.ofFn fun i : Fin (16 * N) => (flat4 e c.toList).getD i.val 0) = Columns.block_bytes e c := by
  rw [← Mem.blocks_image (base := 0)]
  unfold blocks Mem.blocks
  apply Vector.ext; intro i hi
  apply Vector.ext; intro j hj
  simp only [Vector.getElem_ofFn, Mem.image]

section
variable {σ : State} {base : Nat}

theorem expand_128_ok (hb : base % 4 = 0) (hc : ∀ c ∈ σ.active, c < σ.nextCall) (hf : ∀ a, base ≤ a ∧ a < base + 16 * 11 → σ.stacks a = [])
    {first e key} {c} (h : Columns.columns_128 first e key = .ok c) :
    ∃ v σ', expand_128 first e base key σ = .ok (v, σ') ∧ blocks v = Columns.block_bytes (N := 11) e c ∧ Freed base (16 * 11) σ σ' := by
  obtain ⟨σ', h1, h2⟩ := expanding_ok (N := 11) (len := 44) (body := fun s => body_128 e s first key) (e := e) (c := c) (by rfl) hb hc hf
    fun σ₀ t hs ht => by rw [body_128_img hs ht, h]; rfl
  exact ⟨_, σ', h1, blocks_flat4 (N := 11) c, h2⟩
theorem expand_192_ok (hb : base % 4 = 0) (hc : ∀ c ∈ σ.active, c < σ.nextCall) (hf : ∀ a, base ≤ a ∧ a < base + 16 * 13 → σ.stacks a = [])
    {first e key} {c} (h : Columns.columns_192 first e key = .ok c) :
    ∃ v σ', expand_192 first e base key σ = .ok (v, σ') ∧ blocks v = Columns.block_bytes (N := 13) e c ∧ Freed base (16 * 13) σ σ' := by
  obtain ⟨σ', h1, h2⟩ := expanding_ok (N := 13) (len := 52) (body := fun s => body_192 e s first key) (e := e) (c := c) (by rfl) hb hc hf
    fun σ₀ t hs ht => by rw [body_192_img hs ht, h]; rfl
  exact ⟨_, σ', h1, blocks_flat4 (N := 13) c, h2⟩
theorem expand_256_ok (hb : base % 4 = 0) (hc : ∀ c ∈ σ.active, c < σ.nextCall) (hf : ∀ a, base ≤ a ∧ a < base + 16 * 15 → σ.stacks a = [])
    {first tail fifth e key} {c} (h : Columns.columns_256 first fifth tail e key = .ok c) :
    ∃ v σ', expand_256 first tail fifth e base key σ = .ok (v, σ') ∧ blocks v = Columns.block_bytes (N := 15) e c ∧ Freed base (16 * 15) σ σ' := by
  obtain ⟨σ', h1, h2⟩ := expanding_ok (N := 15) (len := 60) (body := fun s => body_256 e s first tail fifth key) (e := e) (c := c) (by rfl) hb hc hf
    fun σ₀ t hs ht => by rw [body_256_img hs ht, h]; rfl
  exact ⟨_, σ', h1, blocks_flat4 (N := 15) c, h2⟩
end

/-- `<[u8; N]>::from(x)`. -/
theorem into_bytes_ok {T : Type} {n : Nat} [AesVec T n] [LawfulVec T] [StoreTo T] [LawfulBorrow T] {σ : State} {p : Nat} (x : T)
    (hc : ∀ c ∈ σ.active, c < σ.nextCall) (hf : ∀ a, p ≤ a ∧ a < p + n → σ.stacks a = []) :
    ∃ σ', into_bytes p x σ = .ok (view x, σ') ∧ Freed p n σ σ' := by
  have h1 : Held (allocated σ p (Vector.replicate n (0 : U8))) ⟨p, n, σ.nextTag⟩ fun _ => [⟨.unique, σ.nextTag, none⟩] :=
    ⟨fun a _ => ⟨_, _, rfl⟩, fun a ha => ⟨[], if_pos ha, fun i hi => by cases hi⟩, Nat.lt_succ_self _, hc⟩
  obtain ⟨σ2, D2, e2, p2, c2⟩ := reborrow_child h1
  obtain ⟨σ3, e3, p3⟩ := LawfulBorrow.ok x c2.held (Nat.le_refl n)
  have q := p2.trans (c2.back p2.held p3)
  have hq : σ3.bytes = applyAll (allocated σ p (Vector.replicate n (0 : U8))).bytes (writesAt p (view x).toList) := q.bytes
  obtain ⟨σ4, σ5, e4, e5, hst, hac, hby, htg, hcl⟩ := read_back (σ := σ) (σ2 := σ3) (p := p) (n := n) hf
    (fun a ha => (q.frame.outside a ha).trans (if_neg ha)) fun a ha => q.held.stack a ha
  refine ⟨σ5, ?_, ⟨hst, hac.trans q.frame.active, ?_, ?_, ?_⟩⟩
  · unfold into_bytes
    rw [bind_run (allocate_ok hf), bind_run e2, bind_run e3, bind_run e4, bind_run e5, pure_apply]
    refine congrArg (fun v => Except.ok (v, σ5)) ?_
    apply Vector.ext
    intro i hi
    simp only [peek, Vector.getElem_ofFn]
    rw [hq, Store.applyAll_writesAt, if_pos (by rw [Vector.length_toList]; omega), Nat.add_sub_cancel_left,
      List.getD_eq_getElem?_getD, List.getElem?_eq_getElem (by rw [Vector.length_toList]; exact hi)]
    simp
  · rw [htg]; exact Nat.le_of_succ_le q.frame.tags
  · rw [hcl]; exact q.frame.calls
  · intro a ha
    rw [hby, hq, Store.applyAll_writesAt, if_neg (by rw [Vector.length_toList]; exact ha)]
    exact dif_neg ha
end Aes.Borrow
