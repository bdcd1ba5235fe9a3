import Verif.Proofs.LinearSbox
import Verif.Proofs.LinearMix
import Verif.Proofs.Differential
import Mathlib.Algebra.BigOperators.Ring.Finset
import Mathlib.Data.Fintype.BigOperators
import Mathlib.Algebra.Order.BigOperators.Ring.Finset
/-! The imbalance of an approximation of a round. -/
namespace AesSpec.Linear
open Fips197
open AesSpec.Differential (BoxRound)
open Aes.Diffusion (wt)
open Aes.Trail (Pat act moved Round)
open scoped BigOperators

/-- The parity, as a sign, of the bits of a state that a mask selects. -/
def epsS (V X : State) : ℤ := ∏ r, ∏ c, eps (V r c) (X r c)

theorem epsS_add (V X Y : State) : epsS V (X.add Y) = epsS V X * epsS V Y := by
  simp only [epsS, State.add, eps_xor_right, Finset.prod_mul_distrib]
theorem epsS_add_left (V W X : State) : epsS (V.add W) X = epsS V X * epsS W X := by
  simp only [epsS, State.add, eps_xor, Finset.prod_mul_distrib]
theorem epsS_abs (V X : State) : (epsS V X).natAbs = 1 := by
  have h (n : ℤ) : n * n = 1 → n.natAbs = 1 := by
    intro h
    rcases Int.mul_eq_one_iff_eq_one_or_neg_one.1 h with ⟨h, -⟩ | ⟨h, -⟩ <;> rw [h] <;> rfl
  refine h _ ?_
  simp only [epsS, ← Finset.prod_mul_distrib, eps_sq, Finset.prod_const_one]
theorem epsS_cols (V X : State) : epsS V X = ∏ c, epsC (V · c) (X · c) := Finset.prod_comm

theorem sgn_pow (b : Bool) : sgn b = (-1) ^ b.toNat := by cases b <;> rfl
theorem eps_pow (a x : Byte) : eps a x = ∏ i : Fin 8, (-1) ^ (a.getLsbD i && x.getLsbD i).toNat := by
  simp only [eps, par, sgn_xor, ← sgn_pow, Fin.prod_univ_eight]
  rfl

theorem prod16 (g : Fin 16 → ℤ) : ∏ i, g i = ∏ r : Fin 4, ∏ c : Fin 4, g ⟨r.val + 4 * c.val, by omega⟩ := by
  simp only [Fin.prod_univ_four]
  simp only [Fin.prod_univ_succ, Fin.prod_univ_zero]
  change g 0 * (g 1 * (g 2 * (g 3 * (g 4 * (g 5 * (g 6 * (g 7 * (g 8 * (g 9 * (g 10 * (g 11 * (g 12 * (g 13 * (g 14 * (g 15 * 1))))))))))))))) =
    (g 0 * g 4 * g 8 * g 12) * (g 1 * g 5 * g 9 * g 13) * (g 2 * g 6 * g 10 * g 14) * (g 3 * g 7 * g 11 * g 15)
  ring

theorem sign_state (u x : Bytes 16) : sign u x = epsS (State.ofBytes u) (State.ofBytes x) := by
  rw [sign, commonBits, ← Finset.prod_pow_eq_pow_sum]
  simp only [← Finset.prod_pow_eq_pow_sum]
  have e : ∀ j : Fin 16, (∏ i : Fin 8, (-1 : ℤ) ^ (u[j].getLsbD i && x[j].getLsbD i).toNat) = eps u[j] x[j] := fun j => (eps_pow _ _).symm
  simp only [e]
  exact prod16 fun j => eps u[j] x[j]

/-- Blocks and states. -/
def blockEquiv : Bytes 16 ≃ State := ⟨State.ofBytes, State.toBytes, toBytes_ofBytes, ofBytes_toBytes⟩

theorem sum_blocks (F : State → ℤ) : ∑ x : Bytes 16, F (State.ofBytes x) = ∑ X : State, F X := Equiv.sum_comp blockEquiv F

/-- A sum over states of products over the bytes. -/
theorem sum_prod (g : Fin 4 → Fin 4 → Byte → ℤ) : ∑ X : State, ∏ r, ∏ c, g r c (X r c) = ∏ r, ∏ c, ∑ x, g r c x := by
  have h2 (r : Fin 4) : ∑ y : Fin 4 → Byte, ∏ c, g r c (y c) = ∏ c, ∑ x, g r c x := by
    rw [Finset.prod_univ_sum, Fintype.piFinset_univ]
  simp only [← h2]
  rw [Finset.prod_univ_sum, Fintype.piFinset_univ]

theorem card_blocks : (Fintype.card (Bytes 16) : ℤ) = 2 ^ 128 := by
  rw [Fintype.card_congr blockEquiv, Fintype.card_fun, Fintype.card_fun, card_byte, Fintype.card_fin]
  rfl

/-- Different blocks are told apart by half of the masks. -/
theorem orthogonal (a b : Bytes 16) : ∑ w : Bytes 16, sign w a * sign w b = if a = b then 2 ^ 128 else 0 := by
  have e : ∀ w : Bytes 16, sign w a * sign w b = ∏ r, ∏ c, eps (State.ofBytes w r c) (State.ofBytes a r c ^^^ State.ofBytes b r c) := by
    intro w
    rw [sign_state, sign_state, ← epsS_add]
    rfl
  simp only [e]
  rw [sum_blocks fun X => ∏ r, ∏ c, eps (X r c) (State.ofBytes a r c ^^^ State.ofBytes b r c),
    sum_prod fun r c x => eps x (State.ofBytes a r c ^^^ State.ofBytes b r c)]
  by_cases h : a = b
  · subst h
    simp only [BitVec.xor_self, eps_comm _ 0#8, sum_eps_zero, Finset.prod_const, Finset.card_univ, Fintype.card_fin, if_true]
    rfl
  · rw [if_neg h]
    obtain ⟨r, c, hrc⟩ : ∃ r c, State.ofBytes a r c ≠ State.ofBytes b r c := by
      apply Classical.byContradiction
      intro hn
      exact h (Differential.ofBytes_inj (funext fun r => funext fun c => Classical.byContradiction fun h1 => hn ⟨r, c, h1⟩))
    refine Finset.prod_eq_zero (Finset.mem_univ r) (Finset.prod_eq_zero (Finset.mem_univ c) ?_)
    simp only [eps_comm _ (State.ofBytes a r c ^^^ _)]
    exact sum_eps fun h0 => hrc (BitVec.xor_eq_zero_iff.mp h0)

/-- Approximations compose: the imbalance of two functions one after the other is the sum over the masks in between. -/
theorem compose (f g : Bytes 16 → Bytes 16) (u v : Bytes 16) :
    ∑ w : Bytes 16, imbalance f u w * imbalance g w v = 2 ^ 128 * imbalance (fun x => g (f x)) u v := by
  simp only [imbalance, Finset.sum_mul_sum]
  rw [Finset.sum_comm, Finset.mul_sum]
  refine Finset.sum_congr rfl fun x _ => ?_
  rw [Finset.sum_comm, Finset.sum_eq_single (f x)]
  · have : ∀ w : Bytes 16, sign u x * sign w (f x) * (sign w (f x) * sign v (g (f x))) =
        sign u x * sign v (g (f x)) * (sign w (f x) * sign w (f x)) := fun w => by ring
    simp only [this, ← Finset.mul_sum, orthogonal, if_true]
    ring
  · intro y _ hy
    have : ∀ w : Bytes 16, sign u x * sign w (f x) * (sign w y * sign v (g y)) =
        sign u x * sign v (g y) * (sign w (f x) * sign w y) := fun w => by ring
    simp only [this, ← Finset.mul_sum, orthogonal, if_neg hy.symm]
    ring
  · exact fun h => absurd (Finset.mem_univ _) h

/-- The squares of a sum over masks, summed over all blocks. -/
theorem parseval (a : Bytes 16 → ℤ) : ∑ k : Bytes 16, (∑ w : Bytes 16, sign w k * a w) ^ 2 = 2 ^ 128 * ∑ w : Bytes 16, a w ^ 2 := by
  have comm : ∀ u x : Bytes 16, sign u x = sign x u := fun u x => by
    rw [sign_state, sign_state]; simp only [epsS, eps_comm]
  simp only [pow_two, Finset.sum_mul_sum]
  rw [Finset.sum_comm, Finset.mul_sum]
  refine Finset.sum_congr rfl fun w _ => ?_
  rw [Finset.sum_comm, Finset.sum_eq_single w]
  · have : ∀ k : Bytes 16, sign w k * a w * (sign w k * a w) = a w * a w * (sign k w * sign k w) := fun k => by rw [comm w k]; ring
    simp only [this, ← Finset.mul_sum, orthogonal, if_true]
    ring
  · intro w' _ hw
    have : ∀ k : Bytes 16, sign w k * a w * (sign w' k * a w') = a w * a w' * (sign k w * sign k w') := fun k => by
      rw [comm w k, comm w' k]; ring
    simp only [this, ← Finset.mul_sum, orthogonal, if_neg hw.symm]
    ring
  · exact fun h => absurd (Finset.mem_univ _) h

/-! ## One round -/

/-- A mix of columns: what the masks need to know about it. -/
structure ColumnMix (mix : State → State) : Prop where
  add : ∀ s s', mix (s.add s') = (mix s).add (mix s')
  column : ∀ s s' c, ((∃ r, mix s r c ≠ mix s' r c) ↔ ∃ r, s r c ≠ s' r c) ∧
    ((∃ r, s r c ≠ s' r c) → 5 ≤ wt (fun r => decide (s r c ≠ s' r c)) + wt (fun r => decide (mix s r c ≠ mix s' r c)))

/-- A state with one column. -/
def put (c : Fin 4) (x : Col) : State := fun r c' => if c' = c then x r else 0#8

theorem put_add (c : Fin 4) (x y : Col) : put c (x.add y) = (put c x).add (put c y) := by
  funext r c'
  simp only [put, State.add, Col.add]
  by_cases h : c' = c <;> simp [h]

theorem ColumnMix.zero {mix : State → State} (h : ColumnMix mix) : mix (fun _ _ => 0#8) = fun _ _ => 0#8 := by
  have e := h.add (fun _ _ => 0#8) (fun _ _ => 0#8)
  have z : State.add (fun _ _ => 0#8) (fun _ _ => 0#8) = fun _ _ => 0#8 := by funext r c; simp [State.add]
  rw [z] at e
  funext r c
  have := congrFun (congrFun e r) c
  simp only [State.add, BitVec.xor_self] at this
  exact this

theorem ColumnMix.local {mix : State → State} (h : ColumnMix mix) (s : State) (r c : Fin 4) : mix s r c = mix (put c (s · c)) r c := by
  apply Classical.byContradiction
  intro hn
  obtain ⟨r', hr⟩ := (h.column s (put c (s · c)) c).1.1 ⟨r, hn⟩
  exact hr (by simp [put])

/-- The transposed mix. -/
theorem ColumnMix.transpose {mix : State → State} (h : ColumnMix mix) (V : State) : ∃ T : State, (∀ Y, epsS V (mix Y) = epsS T Y) ∧
    ∀ c, ((∃ r, T r c ≠ 0#8) ∨ ∃ r, V r c ≠ 0#8) → 5 ≤ wt (nzC (T · c)) + wt (nzC (V · c)) := by
  have hc (c : Fin 4) : ∃ t : Col, ∀ x, epsC (V · c) (mix (put c x) · c) = epsC t x := by
    refine col_hom (fun x => epsC (V · c) (mix (put c x) · c)) (fun x y => ?_) fun x => epsC_sq _ _
    rw [put_add, h.add, ← epsC_add]
    rfl
  choose t ht using hc
  refine ⟨fun r c => t c r, fun Y => ?_, fun c hne => ?_⟩
  · rw [epsS_cols, epsS_cols]
    refine Finset.prod_congr rfl fun c _ => ?_
    have : (fun r => mix Y r c) = fun r => mix (put c (Y · c)) r c := funext fun r => h.local Y r c
    rw [this, ht]
  · refine dual_branch (fun x r => mix (put c x) r c) (fun x y => ?_) (fun x hx => ?_) (t c) (V · c) (ht c) hne
    · funext r
      rw [put_add, h.add]
      rfl
    · obtain ⟨r, hr⟩ := hx
      have := (h.column (put c x) (fun _ _ => 0#8) c).2 ⟨r, by simpa [put] using hr⟩
      rw [h.zero] at this
      simp only [put, if_true] at this
      exact this

/-- A byte permutation that is badly approximated. -/
structure Box (box : Byte → Byte) : Prop where
  inj : Function.Injective box
  bound : ∀ {a b : Byte}, a ≠ 0#8 ∨ b ≠ 0#8 → (walsh box a b).natAbs ≤ 32

theorem Box.zero {box : Byte → Byte} (h : Box box) {a b : Byte} (hab : ¬ (a = 0#8 ↔ b = 0#8)) : walsh box a b = 0 := by
  by_cases ha : a = 0#8
  · have hb : b ≠ 0#8 := fun hb => hab ⟨fun _ => hb, fun _ => ha⟩
    subst ha
    have e : ∑ x : Byte, eps b (box x) = ∑ x : Byte, eps b x :=
      Equiv.sum_comp (Equiv.ofBijective box (Finite.injective_iff_bijective.1 h.inj)) fun x => eps b x
    simp only [walsh, eps_zero, _root_.one_mul]
    rw [e, sum_eps hb]
  · have hb : b = 0#8 := Classical.byContradiction fun hb => hab ⟨fun h => absurd h ha, fun h => absurd h hb⟩
    subst hb
    simp only [walsh, eps_zero, _root_.mul_one]
    exact sum_eps ha

theorem walsh_zero (box : Byte → Byte) : walsh box 0#8 0#8 = 256 := by
  simp only [walsh, eps_zero, _root_.mul_one, Finset.sum_const, Finset.card_univ, card_byte]
  rfl

theorem Box.abs {box : Byte → Byte} (h : Box box) (a b : Byte) : (walsh box a b).natAbs * 8 ^ (if a = 0#8 then 0 else 1) ≤ 256 := by
  by_cases ha : a = 0#8
  · subst ha
    by_cases hb : b = 0#8
    · subst hb
      rw [walsh_zero]
      decide
    · rw [h.zero fun e => hb (e.1 rfl)]
      decide
  · rw [if_neg ha]
    have := h.bound (b := b) (.inl ha)
    omega

variable {f : Bytes 16 → Bytes 16 → Bytes 16}

/-- Where a mask is not zero. -/
def patM (u : Bytes 16) : Pat := fun r c => decide (State.ofBytes u r c ≠ 0#8)

theorem add_key (k : Bytes 16) (s : State) : addRoundKey (keyWords k) s = s.add (State.ofBytes k) := by
  funext r c
  simp only [addRoundKey, State.add, State.ofBytes, keyWords]
  congr 2
  omega

/-- The key only changes the sign. -/
theorem imbalance_key (R : BoxRound f) (k u v : Bytes 16) : imbalance (fun x => f x k) u v = sign v k * imbalance (fun x => f x (zeroB 16)) u v := by
  have z : sign v (zeroB 16) = 1 := by
    rw [sign_state]
    simp only [epsS]
    have : ∀ r c, State.ofBytes (zeroB 16) r c = 0#8 := by
      intro r c; simp [State.ofBytes, zeroB]
    simp only [this, eps_zero_right, Finset.prod_const_one]
  have e (x k : Bytes 16) : sign v (f x k) = sign v k * epsS (State.ofBytes v) (R.mix (R.pre (State.ofBytes x))) := by
    rw [sign_state, R.eq, ofBytes_toBytes, add_key, epsS_add, sign_state, _root_.mul_comm]
  rw [imbalance, imbalance, Finset.mul_sum]
  refine Finset.sum_congr rfl fun x _ => ?_
  rw [e, e, z]
  ring

/-- The imbalance of a round is a product over the bytes. -/
theorem imbalance_round (R : BoxRound f) (hm : ColumnMix R.mix) (k u v : Bytes 16) : ∃ T : State,
    imbalance (fun x => f x k) u v = sign v k * ∏ r, ∏ c, walsh R.box (State.ofBytes u r c) (T r (R.back r c)) ∧
    ∀ c, ((∃ r, T r c ≠ 0#8) ∨ ∃ r, State.ofBytes v r c ≠ 0#8) → 5 ≤ wt (nzC (T · c)) + wt (nzC (State.ofBytes v · c)) := by
  obtain ⟨T, hT, hb⟩ := hm.transpose (State.ofBytes v)
  refine ⟨T, ?_, hb⟩
  have e (x : Bytes 16) : sign u x * sign v (f x k) = sign v k *
      ∏ r, ∏ c, eps (State.ofBytes u r c) (State.ofBytes x r c) * eps (T r (R.back r c)) (R.box (State.ofBytes x r c)) := by
    have h1 : epsS T (R.pre (State.ofBytes x)) = ∏ r, ∏ c, eps (T r (R.back r c)) (R.box (State.ofBytes x r c)) := by
      refine Finset.prod_congr rfl fun r _ => ?_
      have hinj : Function.Injective (R.back r) := fun c c' h => by rw [← R.sh_back r c, h, R.sh_back]
      rw [← Equiv.prod_comp (Equiv.ofBijective (R.back r) (Finite.injective_iff_bijective.1 hinj))]
      refine Finset.prod_congr rfl fun c _ => ?_
      show eps (T r (R.back r c)) (R.pre (State.ofBytes x) r (R.back r c)) = _
      rw [R.pre_eq, R.sh_back]
    simp only [Finset.prod_mul_distrib]
    rw [← h1, ← hT, sign_state v, R.eq, ofBytes_toBytes, add_key, epsS_add, sign_state u, sign_state v]
    simp only [epsS]
    ring
  simp only [imbalance, e, ← Finset.mul_sum]
  rw [sum_blocks fun X => ∏ r, ∏ c, eps (State.ofBytes u r c) (X r c) * eps (T r (R.back r c)) (R.box (X r c)),
    sum_prod fun r c x => eps (State.ofBytes u r c) x * eps (T r (R.back r c)) (R.box x)]
  rfl

theorem natAbs_prod {ι : Type} (s : Finset ι) (g : ι → ℤ) : (∏ i ∈ s, g i).natAbs = ∏ i ∈ s, (g i).natAbs :=
  map_prod (⟨⟨Int.natAbs, rfl⟩, Int.natAbs_mul⟩ : ℤ →* ℕ) g s

/-- One round. -/
theorem round_bound (R : BoxRound f) (hm : ColumnMix R.mix) (hbox : Box R.box) (k u v : Bytes 16) :
    (imbalance (fun x => f x k) u v).natAbs * 2 ^ (3 * weight u) ≤ 2 ^ 128 := by
  obtain ⟨T, e, -⟩ := imbalance_round R hm k u v
  rw [e, Int.natAbs_mul, sign_state, epsS_abs, Nat.one_mul, natAbs_prod]
  simp only [natAbs_prod]
  rw [Differential.weight_sum, pow_mul, show (2 : Nat) ^ 3 = 8 from rfl, ← Finset.prod_pow_eq_pow_sum]
  simp only [← Finset.prod_pow_eq_pow_sum, ← Finset.prod_mul_distrib]
  refine Nat.le_trans (Finset.prod_le_prod (fun _ _ => Nat.zero_le _) fun r _ => Finset.prod_le_prod (fun _ _ => Nat.zero_le _) fun c _ => hbox.abs _ _) ?_
  simp only [Finset.prod_const, Finset.card_univ, Fintype.card_fin]
  decide

/-- An approximation that is not worthless has masks that fit the round. -/
theorem round_pattern (R : BoxRound f) (hm : ColumnMix R.mix) (hbox : Box R.box) {k u v : Bytes 16}
    (h : imbalance (fun x => f x k) u v ≠ 0) : Round R.sh (patM u) (patM v) := by
  obtain ⟨T, e, hb⟩ := imbalance_round R hm k u v
  rw [e] at h
  have hnz : ∀ r c, State.ofBytes u r c = 0#8 ↔ T r (R.back r c) = 0#8 := by
    intro r c
    apply Classical.byContradiction
    intro hn
    refine h ?_
    rw [Finset.prod_eq_zero (Finset.mem_univ r) (Finset.prod_eq_zero (Finset.mem_univ c) (hbox.zero hn)), Int.mul_zero]
  have back_sh : ∀ r c, R.back r (R.sh r c) = c := by
    intro r c
    have hinj : Function.Injective (R.back r) := fun c c' h => by rw [← R.sh_back r c, h, R.sh_back]
    obtain ⟨c', rfl⟩ := (Finite.injective_iff_surjective.1 hinj) c
    rw [R.sh_back]
  have hT : moved R.sh (patM u) = fun r c => decide (T r c ≠ 0#8) := by
    funext r c
    simp only [moved, patM, ne_eq, hnz, back_sh]
  have act_iff (A : Pat) (c : Fin 4) : act A c = true ↔ ∃ r, A r c = true := by
    simp [act, Aes.Diffusion.ex4, or_assoc]
  have four (p : Fin 4 → Bool) : wt p ≤ 4 := by
    simp only [wt]
    cases p 0 <;> cases p 1 <;> cases p 2 <;> cases p 3 <;> decide
  have none {x : Col} (hx : ¬ ∃ r, x r ≠ 0#8) : wt (nzC x) = 0 := by
    have : ∀ r, nzC x r = false := fun r => by
      have : x r = 0#8 := Classical.byContradiction fun h => hx ⟨r, h⟩
      simp [nzC, this]
    simp only [wt, this]
    rfl
  intro c
  rw [hT, Bool.eq_iff_iff, act_iff, act_iff]
  simp only [patM, decide_eq_true_eq]
  have h5 := hb c
  have key : (∃ r, State.ofBytes v r c ≠ 0#8) ↔ ∃ r, T r c ≠ 0#8 := by
    constructor
    · intro hv
      apply Classical.byContradiction
      intro hn
      have := h5 (.inr hv)
      rw [none (x := (T · c)) hn] at this
      have := four (nzC (State.ofBytes v · c))
      omega
    · intro ht
      apply Classical.byContradiction
      intro hn
      have := h5 (.inl ht)
      rw [none (x := (State.ofBytes v · c)) hn] at this
      have := four (nzC (T · c))
      omega
  exact ⟨key, fun hv => h5 (.inr hv)⟩

end AesSpec.Linear
