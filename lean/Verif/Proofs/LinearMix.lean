import Verif.Proofs.LinearBox
import Verif.Proofs.Trail
import Mathlib.Data.Fintype.BigOperators
import Mathlib.Data.Fintype.Sum
import Mathlib.Algebra.BigOperators.Fin
/-! Masks through an additive mix of columns: the transposed mix, and its branch number. -/
namespace AesSpec.Linear
open Fips197
open Aes.Diffusion (wt)
open scoped BigOperators

/-- A column of a state. -/
abbrev Col := Fin 4 → Byte
def Col.add (x y : Col) : Col := fun r => x r ^^^ y r
/-- The parity, as a sign, of the bits of a column that a mask selects. -/
def epsC (v x : Col) : ℤ := ∏ r, eps (v r) (x r)

theorem epsC_add (v x y : Col) : epsC v (x.add y) = epsC v x * epsC v y := by
  simp only [epsC, Col.add, eps_xor_right, Finset.prod_mul_distrib]
theorem epsC_sq (v x : Col) : epsC v x * epsC v x = 1 := by
  simp only [epsC, ← Finset.prod_mul_distrib, eps_sq, Finset.prod_const_one]

theorem byte_homZ (h : Byte → ℤ) (hx : ∀ x y, h (x ^^^ y) = h x * h y) (hs : ∀ x, h x * h x = 1) : ∃ a, ∀ x, h x = eps a x := by
  have h1 (x : Byte) : h x = 1 ∨ h x = -1 := by
    rcases Int.mul_eq_one_iff_eq_one_or_neg_one.1 (hs x) with ⟨h, -⟩ | ⟨h, -⟩
    · exact .inl h
    · exact .inr h
  obtain ⟨a, ha⟩ := byte_hom (fun x => decide (h x = -1)) fun x y => by
    rw [hx]
    rcases h1 x with e | e <;> rcases h1 y with e' | e' <;> rw [e, e'] <;> rfl
  refine ⟨a, fun x => ?_⟩
  rw [eps, ← ha]
  rcases h1 x with e | e <;> rw [e] <;> rfl

/-- A column with one byte. -/
def sing (k : Fin 4) (b : Byte) : Col := fun r => if r = k then b else 0#8

theorem sing_add (k : Fin 4) (a b : Byte) : sing k (a ^^^ b) = (sing k a).add (sing k b) := by
  funext r
  simp only [sing, Col.add]
  by_cases h : r = k <;> simp [h]
theorem sing_sum (x : Col) : x = (((sing 0 (x 0)).add (sing 1 (x 1))).add (sing 2 (x 2))).add (sing 3 (x 3)) := by
  funext r
  match r with
  | 0 => simp [sing, Col.add]
  | 1 => simp [sing, Col.add]
  | 2 => simp [sing, Col.add]
  | 3 => simp [sing, Col.add]

/-- Every additive sign of a column is the parity of some mask. -/
theorem col_hom (h : Col → ℤ) (hx : ∀ x y : Col, h (x.add y) = h x * h y) (hs : ∀ x, h x * h x = 1) : ∃ t : Col, ∀ x, h x = epsC t x := by
  have hk (k : Fin 4) : ∃ a, ∀ b, h (sing k b) = eps a b :=
    byte_homZ (fun b => h (sing k b)) (fun a b => by rw [sing_add, hx]) fun b => hs _
  choose t ht using hk
  refine ⟨t, fun x => ?_⟩
  conv => lhs; rw [sing_sum x]
  rw [hx, hx, hx, ht, ht, ht, ht, epsC, Fin.prod_univ_four]

/-- Where a column is not zero. -/
def nzC (x : Col) : Fin 4 → Bool := fun r => decide (x r ≠ 0#8)

theorem wt_card (x y : Col) : wt (nzC x) + wt (nzC y) = (Finset.univ.filter fun d : Fin 4 ⊕ Fin 4 => Sum.elim x y d ≠ 0#8).card := by
  rw [Finset.card_filter, Fintype.sum_sum_type]
  have e (b : Byte) : (decide (b ≠ 0#8)).toNat = if b ≠ 0#8 then 1 else 0 := by
    by_cases h : b = 0#8 <;> simp [h]
  simp only [Fin.sum_univ_four, Sum.elim_inl, Sum.elim_inr, wt, nzC, e]
  rfl

/-- If no column that is not zero has fewer than five bytes together with its image, then no mask that is not zero has fewer than
five bytes together with its preimage. -/
theorem dual_branch (m : Col → Col) (hadd : ∀ x y, m (x.add y) = (m x).add (m y))
    (hb : ∀ x : Col, (∃ r, x r ≠ 0#8) → 5 ≤ wt (nzC x) + wt (nzC (m x)))
    (t v : Col) (h : ∀ x, epsC v (m x) = epsC t x) (hne : (∃ r, t r ≠ 0#8) ∨ ∃ r, v r ≠ 0#8) : 5 ≤ wt (nzC t) + wt (nzC v) := by
  classical
  apply Classical.byContradiction
  intro hw
  rw [wt_card] at hw
  obtain ⟨D, hD, -, hc⟩ := Finset.exists_subsuperset_card_eq (Finset.filter_subset (fun d : Fin 4 ⊕ Fin 4 => Sum.elim t v d ≠ 0#8) Finset.univ)
    (n := 4) (by omega) (by simp)
  -- the bytes at the four positions determine the column, so they take all values
  let code (x : Col) : D → Byte := fun d => Sum.elim x (m x) d.1
  have hinj : Function.Injective code := by
    intro x y hxy
    apply Classical.byContradiction
    intro hn
    have hz : ∃ r, (x.add y) r ≠ 0#8 := by
      apply Classical.byContradiction
      intro h0
      exact hn (funext fun r => BitVec.xor_eq_zero_iff.mp (Classical.byContradiction fun h1 => h0 ⟨r, h1⟩))
    have h5 := hb _ hz
    rw [wt_card] at h5
    have hsub : (Finset.univ.filter fun d : Fin 4 ⊕ Fin 4 => Sum.elim (x.add y) (m (x.add y)) d ≠ 0#8) ⊆ Dᶜ := by
      intro d hd
      rw [Finset.mem_compl]
      intro hdD
      rw [Finset.mem_filter] at hd
      refine hd.2 ?_
      have := congrFun hxy ⟨d, hdD⟩
      simp only [code] at this
      cases d with
      | inl r => exact BitVec.xor_eq_zero_iff.mpr this
      | inr r =>
        show m (x.add y) r = 0#8
        rw [hadd]
        exact BitVec.xor_eq_zero_iff.mpr this
    have := Finset.card_le_card hsub
    rw [Finset.card_compl, hc] at this
    simp only [Fintype.card_sum, Fintype.card_fin] at this
    omega
  have hsurj : Function.Surjective code := by
    refine ((Fintype.bijective_iff_injective_and_card code).2 ⟨hinj, ?_⟩).2
    rw [Fintype.card_fun, Fintype.card_fun, Fintype.card_coe, hc, Fintype.card_fin]
  obtain ⟨d, hd⟩ : ∃ d, Sum.elim t v d ≠ 0#8 := by
    rcases hne with ⟨r, hr⟩ | ⟨r, hr⟩
    · exact ⟨.inl r, hr⟩
    · exact ⟨.inr r, hr⟩
  have hdD : d ∈ D := hD (by simpa using hd)
  obtain ⟨y, hy⟩ := exists_eps hd
  obtain ⟨x, hx⟩ := hsurj fun d' => if d'.1 = d then y else 0#8
  have h1 : ∏ d : Fin 4 ⊕ Fin 4, eps (Sum.elim t v d) (Sum.elim x (m x) d) = 1 := by
    rw [Fintype.prod_sum_type]
    show epsC t x * epsC v (m x) = 1
    rw [h, epsC_sq]
  rw [Finset.prod_eq_single d] at h1
  · have := congrFun hx ⟨d, hdD⟩
    simp only [code, if_true] at this
    rw [this, hy] at h1
    cases h1
  · intro d' _ hne
    by_cases hD' : d' ∈ D
    · have := congrFun hx ⟨d', hD'⟩
      simp only [code, if_neg hne] at this
      rw [this, eps_zero_right]
    · have : Sum.elim t v d' = 0#8 := Classical.byContradiction fun h0 => hD' (hD (by simpa using h0))
      rw [this, eps_zero]
  · exact fun h => absurd (Finset.mem_univ d) h

end AesSpec.Linear
