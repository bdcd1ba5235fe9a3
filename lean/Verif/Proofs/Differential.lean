import Verif.Proofs.Count
import Verif.Proofs.Field
import Verif.Proofs.Diffusion
import Verif.Spec.Rv32
import Verif.Proofs.Riscv32
/-
How many pairs of blocks follow a differential characteristic.
-/
namespace AesSpec.Differential
open Fips197
open scoped BigOperators

/-- At most four inputs of SBOX with difference `a ≠ 0` give the output difference `c`. -/
theorem sbox_four {a : Byte} (ha : a ≠ 0#8) (c : Byte) : AtMost (fun x => sbox x ^^^ sbox (x ^^^ a) = c) 4 := by
  obtain ⟨x₀, h⟩ := sbox_uniform ha c
  exact AtMost.of_subset [0#8, a, x₀, x₀ ^^^ a] fun x hx => by simpa using h x hx

/-- The same for INVSBOX: the outputs are inputs of SBOX with difference `c`. -/
theorem invSbox_four {a : Byte} (ha : a ≠ 0#8) (c : Byte) : AtMost (fun x => invSbox x ^^^ invSbox (x ^^^ a) = c) 4 := by
  by_cases hc : c = 0#8
  · subst hc
    refine AtMost.mono (Q := fun _ => False) (fun l _ h => ?_) fun x hx => ha ?_
    · cases l with
      | nil => simp
      | cons a l => exact (h a (by simp)).elim
    · have := congrArg sbox (BitVec.xor_eq_zero_iff.mp hx)
      rw [sbox_invSbox, sbox_invSbox] at this
      have h2 : x ^^^ x = x ^^^ (x ^^^ a) := congrArg (x ^^^ ·) this
      rw [BitVec.xor_self, ← BitVec.xor_assoc, BitVec.xor_self, BitVec.zero_xor] at h2
      exact h2.symm
  · refine AtMost.inj (sbox_four hc a) invSbox (fun x y _ _ h => ?_) fun x hx => ?_
    · rw [← sbox_invSbox x, h, sbox_invSbox]
    · have : invSbox x ^^^ c = invSbox (x ^^^ a) := by
        rw [← hx, ← BitVec.xor_assoc, BitVec.xor_self, BitVec.zero_xor]
      rw [this, sbox_invSbox, sbox_invSbox, ← BitVec.xor_assoc, BitVec.xor_self, BitVec.zero_xor]

/-- A round: a byte permutation of low differential uniformity and a row shift, an additive invertible mix, and the key. -/
structure BoxRound (f : Bytes 16 → Bytes 16 → Bytes 16) where
  sh : Fin 4 → Fin 4 → Fin 4
  back : Fin 4 → Fin 4 → Fin 4
  sh_back : ∀ r c, sh r (back r c) = c
  box : Byte → Byte
  uniform : ∀ {a : Byte}, a ≠ 0#8 → ∀ c, AtMost (fun x => box x ^^^ box (x ^^^ a) = c) 4
  pre : State → State
  pre_eq : ∀ s r c, pre s r c = box (s r (sh r c))
  mix : State → State
  unmix : State → State
  unmix_mix : ∀ s, unmix (mix s) = s
  mix_add : ∀ s s', mix (s.add s') = (mix s).add (mix s')
  eq : ∀ s k, f s k = State.toBytes (addRoundKey (keyWords k) (mix (pre (State.ofBytes s))))

/-- What a byte can be, counted. -/
def choices (d : Byte) : Nat := if d = 0#8 then 256 else 4

theorem getElem_xorB (a b : Bytes 16) (i : Nat) (h : i < 16) : (xorB a b)[i] = a[i] ^^^ b[i] := by
  simp [xorB]
theorem ofBytes_xorB (a b : Bytes 16) : State.ofBytes (xorB a b) = (State.ofBytes a).add (State.ofBytes b) := by
  funext r c
  simp only [State.ofBytes, State.add]
  exact getElem_xorB _ _ _ _
theorem ofBytes_inj {a b : Bytes 16} (h : State.ofBytes a = State.ofBytes b) : a = b := by
  rw [← toBytes_ofBytes a, h, toBytes_ofBytes]

theorem xorB_comm (a b : Bytes 16) : xorB a b = xorB b a := by
  ext i hi; simp [xorB, BitVec.xor_comm]
theorem xorB_cancel (a b : Bytes 16) : xorB a (xorB a b) = b := by
  apply Vector.ext
  intro i hi
  rw [getElem_xorB, getElem_xorB, ← BitVec.xor_assoc, BitVec.xor_self, BitVec.zero_xor]

theorem xor_key (p q k : Byte) : (p ^^^ k) ^^^ (q ^^^ k) = p ^^^ q := by
  rw [BitVec.xor_comm q k, BitVec.xor_assoc, ← BitVec.xor_assoc k k, BitVec.xor_self, BitVec.zero_xor]

variable {f : Bytes 16 → Bytes 16 → Bytes 16}

theorem BoxRound.diff (R : BoxRound f) {x x' k d' : Bytes 16} (h : xorB (f x k) (f x' k) = d') (r c : Fin 4) :
    R.box (State.ofBytes x r c) ^^^ R.box (State.ofBytes x' r c) = R.unmix (State.ofBytes d') r (R.back r c) := by
  have h1 : State.ofBytes d' = R.mix ((R.pre (State.ofBytes x)).add (R.pre (State.ofBytes x'))) := by
    rw [← h, ofBytes_xorB, R.eq, R.eq, ofBytes_toBytes, ofBytes_toBytes, R.mix_add]
    funext r c
    simp only [State.add, addRoundKey]
    exact xor_key _ _ _
  rw [h1, R.unmix_mix]
  simp only [State.add, R.pre_eq, R.sh_back]

/-- The number of pairs that go from difference `d` to difference `d'` in one round. -/
theorem BoxRound.one (R : BoxRound f) (d d' : Bytes 16) :
    AtMost (fun x : Bytes 16 => ∃ k, xorB (f x k) (f (xorB x d) k) = d') (∏ r, ∏ c, choices (State.ofBytes d r c)) := by
  refine AtMost.inj (AtMost.pi (P := fun r => fun row : Fin 4 → Byte => ∀ c,
      R.box (row c) ^^^ R.box (row c ^^^ State.ofBytes d r c) = R.unmix (State.ofBytes d') r (R.back r c) ∨
      State.ofBytes d r c = 0#8)
    (N := fun r => ∏ c, choices (State.ofBytes d r c)) fun r => AtMost.pi (P := fun c x => 
      R.box x ^^^ R.box (x ^^^ State.ofBytes d r c) = R.unmix (State.ofBytes d') r (R.back r c) ∨
      State.ofBytes d r c = 0#8) (N := fun c => choices (State.ofBytes d r c)) fun c => ?_) State.ofBytes
    (fun a b _ _ h => ofBytes_inj h) ?_
  · unfold choices
    by_cases h : State.ofBytes d r c = 0#8
    · rw [if_pos h]; exact AtMost.byte _
    · rw [if_neg h]
      exact AtMost.mono (R.uniform h _) fun x hx => hx.resolve_right h
  · rintro x ⟨k, hk⟩ r c
    have := R.diff hk r c
    rw [ofBytes_xorB] at this
    exact .inl this

theorem choices_pow (d : Byte) : choices d * 64 ^ (if d = 0#8 then 0 else 1) = 256 := by
  unfold choices
  by_cases h : d = 0#8 <;> simp [h]

theorem countP_ofFn {α : Type} (p : α → Bool) : ∀ {n : Nat} (g : Fin n → α), (List.ofFn g).countP p = ∑ i, (p (g i)).toNat
  | 0, _ => by simp
  | n + 1, g => by
    rw [List.ofFn_succ, List.countP_cons, countP_ofFn, Fin.sum_univ_succ, Nat.add_comm]
    congr 1
    cases p (g 0) <;> rfl

theorem weight_sum (d : Bytes 16) : weight d = ∑ r : Fin 4, ∑ c : Fin 4, if State.ofBytes d r c = 0#8 then 0 else 1 := by
  have e : ∀ x : Byte, (x != 0#8).toNat = if x = 0#8 then 0 else 1 := by
    intro x
    by_cases h : x = 0#8
    · subst h; rfl
    · rw [if_neg h, (bne_iff_ne).2 h]; rfl
  rw [weight, List.finRange, countP_ofFn]
  simp only [e]
  have : ∀ g : Fin 16 → Nat, ∑ i, g i = ∑ r : Fin 4, ∑ c : Fin 4, g ⟨4 * c.val + r.val, by omega⟩ := by
    intro g
    simp only [Fin.sum_univ_four]
    simp only [Fin.sum_univ_succ, Fin.sum_univ_zero]
    change g 0 + (g 1 + (g 2 + (g 3 + (g 4 + (g 5 + (g 6 + (g 7 + (g 8 + (g 9 + (g 10 + (g 11 + (g 12 + (g 13 + (g 14 + (g 15 + 0))))))))))))))) =
      (g 0 + g 4 + g 8 + g 12) + (g 1 + g 5 + g 9 + g 13) + (g 2 + g 6 + g 10 + g 14) + (g 3 + g 7 + g 11 + g 15)
    omega
  exact this _

theorem choices_prod (d : Bytes 16) : (∏ r : Fin 4, ∏ c : Fin 4, choices (State.ofBytes d r c)) * 2 ^ (6 * weight d) = 2 ^ 128 := by
  rw [weight_sum, pow_mul, show (2 : Nat) ^ 6 = 64 from rfl, ← Finset.prod_pow_eq_pow_sum]
  simp only [← Finset.prod_pow_eq_pow_sum, ← Finset.prod_mul_distrib, choices_pow, Finset.prod_const, Finset.card_univ, Fintype.card_fin]
  rfl

/-- The states a run of rounds goes through, the last one included. -/
def states (f : Bytes 16 → Bytes 16 → Bytes 16) (x : Bytes 16) : List (Bytes 16) → List (Bytes 16)
  | [] => [x]
  | k :: ks => x :: states f (f x k) ks

/-- The key is added last, so it is determined by the input and the output. -/
theorem BoxRound.key (R : BoxRound f) {x k k' : Bytes 16} (h : f x k = f x k') : k = k' := by
  rw [R.eq, R.eq] at h
  have h1 := congrArg State.ofBytes h
  rw [ofBytes_toBytes, ofBytes_toBytes] at h1
  apply Vector.ext
  intro i hi
  have h2 := congrFun (congrFun h1 ⟨i % 4, by omega⟩) ⟨i / 4, by omega⟩
  simp only [addRoundKey] at h2
  have h3 := (BitVec.xor_right_inj _).1 h2
  simpa [keyWords, Nat.div_add_mod] using h3

theorem two_pow_split {a b w N : Nat} (h : N * 2 ^ (6 * w) = 2 ^ 128) (hb : 6 * b ≤ 128 * a) (hw : 6 * w ≤ 128) :
    N * 2 ^ (128 * a - 6 * b) = 2 ^ (128 * (a + 1) - 6 * (w + b)) := by
  apply Nat.eq_of_mul_eq_mul_right (Nat.two_pow_pos (6 * w))
  rw [Nat.mul_right_comm, h, ← Nat.pow_add, ← Nat.pow_add]
  congr 1
  omega

theorem weight_le (d : Bytes 16) : weight d ≤ 16 := by
  refine Nat.le_trans (List.countP_le_length) ?_
  simp
theorem weights_le (ds : List (Bytes 16)) : 6 * (ds.map weight).sum ≤ 128 * ds.length := by
  induction ds with
  | nil => simp
  | cons d ds ih => have := weight_le d; simp only [List.map_cons, List.sum_cons, List.length_cons]; omega

/-- All blocks. -/
theorem AtMost.block (P : Bytes 16 → Prop) : AtMost P (2 ^ 128) := by
  refine AtMost.inj (AtMost.pi (P := fun _ => fun _ : Fin 4 → Byte => ∀ _ : Fin 4, True) (N := fun _ : Fin 4 => 256 ^ 4) fun r => ?_) State.ofBytes
    (fun a b _ _ h => ofBytes_inj h) (fun _ _ _ _ => trivial)
  have := AtMost.pi (n := 4) (P := fun _ => fun _ : Byte => True) (N := fun _ => 256) fun _ => AtMost.byte _
  simpa using this

/-- Two starting blocks and the keys whose states differ by `ds`. -/
def Along (f : Bytes 16 → Bytes 16 → Bytes 16) (ds : List (Bytes 16)) (p : Bytes 16 × Bytes 16 × List (Bytes 16)) : Prop :=
  List.zipWith xorB (states f p.1 p.2.2) (states f p.2.1 p.2.2) = ds

theorem xorB_right {a b d : Bytes 16} (h : xorB a b = d) : b = xorB a d := by
  rw [← h, xorB_cancel]

theorem zip_ne_nil (f : Bytes 16 → Bytes 16 → Bytes 16) (x y : Bytes 16) (ks : List (Bytes 16)) :
    ∃ l, List.zipWith xorB (states f x ks) (states f y ks) = xorB x y :: l := by
  cases ks <;> exact ⟨_, rfl⟩

theorem BoxRound.along (R : BoxRound f) : ∀ ds : List (Bytes 16),
    AtMost (Along f ds) (2 ^ (128 * ds.length - 6 * (ds.dropLast.map weight).sum))
  | [] => by
    refine AtMost.mono (Q := fun _ => False) (fun l _ h => ?_) ?_
    · cases l with
      | nil => simp
      | cons a l => exact (h a (by simp)).elim
    · rintro ⟨x, y, ks⟩ h
      obtain ⟨l, e⟩ := zip_ne_nil f x y ks
      simp only [Along, e] at h
      cases h
  | [d] => by
    refine AtMost.inj (AtMost.block (fun _ => True)) (fun p => p.1) ?_ (fun _ _ => trivial)
    have hk : ∀ p : Bytes 16 × Bytes 16 × List (Bytes 16), Along f [d] p → p = (p.1, xorB p.1 d, []) := by
      rintro ⟨x, y, ks⟩ h
      cases ks with
      | nil =>
        simp only [Along, states, List.zipWith_cons_cons, List.zipWith_nil_left, List.cons.injEq, and_true] at h
        rw [xorB_right h]
      | cons k ks =>
        obtain ⟨l, e⟩ := zip_ne_nil f (f x k) (f y k) ks
        simp only [Along, states, List.zipWith_cons_cons, e] at h
        cases h
    intro p q hp hq e
    rw [hk p hp, hk q hq, show p.1 = q.1 from e]
  | d :: d' :: ds => by
    have ih := R.along (d' :: ds)
    have hN := choices_prod d
    have e : 2 ^ (128 * (d :: d' :: ds).length - 6 * ((d :: d' :: ds).dropLast.map weight).sum)
        = (∏ r, ∏ c, choices (State.ofBytes d r c)) * 2 ^ (128 * (d' :: ds).length - 6 * ((d' :: ds).dropLast.map weight).sum) := by
      rw [two_pow_split hN]
      · rfl
      · refine Nat.le_trans (weights_le _) ?_
        simp; omega
      · have := weight_le d; omega
    rw [e]
    have hk : ∀ p : Bytes 16 × Bytes 16 × List (Bytes 16), Along f (d :: d' :: ds) p →
        ∃ k ks, p = (p.1, xorB p.1 d, k :: ks) ∧ xorB (f p.1 k) (f (xorB p.1 d) k) = d' ∧ 
          Along f (d' :: ds) (f p.1 k, f (xorB p.1 d) k, ks) := by
      rintro ⟨x, y, ks⟩ h
      cases ks with
      | nil => simp [Along, states] at h
      | cons k ks =>
        simp only [Along, states, List.zipWith_cons_cons, List.cons.injEq] at h
        obtain ⟨h1, h2⟩ := h
        have hy := xorB_right h1
        subst hy
        refine ⟨k, ks, rfl, ?_, h2⟩
        obtain ⟨l, e⟩ := zip_ne_nil f (f x k) (f (xorB x d) k) ks
        rw [e] at h2
        exact (List.cons.inj h2).1
    refine AtMost.inj (AtMost.prod (R.one d d') ih)
      (fun p => (p.1, f p.1 p.2.2.headI, f p.2.1 p.2.2.headI, p.2.2.tail)) ?_ ?_
    · intro p q hp hq e
      obtain ⟨k, ks, ep, -, -⟩ := hk p hp
      obtain ⟨k', ks', eq, -, -⟩ := hk q hq
      rw [ep, eq] at e
      simp only [Prod.mk.injEq, List.headI_cons, List.tail_cons] at e
      obtain ⟨e1, e2, -, e4⟩ := e
      rw [← e1] at e2
      rw [ep, eq, ← e1, R.key e2, e4]
    · intro p hp
      obtain ⟨k, ks, ep, h1, h2⟩ := hk p hp
      rw [ep]
      exact ⟨⟨k, h1⟩, h2⟩


theorem shR_back : ∀ r c : Fin 4, (c - r) + r = c := by decide
theorem shL_back : ∀ r c : Fin 4, (c + r) - r = c := by decide

def encBox : BoxRound encRound where
  sh r c := c + r
  back r c := c - r
  sh_back := shR_back
  box := sbox
  uniform := sbox_four
  pre s := shiftRows (subBytes s)
  pre_eq _ _ _ := rfl
  mix := mixColumns
  unmix := invMixColumns
  unmix_mix := invMixColumns_mixColumns
  mix_add := mixColumns_add
  eq _ _ := rfl
def decBox : BoxRound decRound where
  sh r c := c - r
  back r c := c + r
  sh_back := shL_back
  box := invSbox
  uniform := invSbox_four
  pre s := invSubBytes (invShiftRows s)
  pre_eq _ _ _ := rfl
  mix := invMixColumns
  unmix := mixColumns
  unmix_mix := mixColumns_invMixColumns
  mix_add := invMixColumns_add
  eq _ _ := rfl
def rv32DecBox : BoxRound rv32DecRound where
  sh r c := c + r
  back r c := c - r
  sh_back := shR_back
  box := invSbox
  uniform := invSbox_four
  pre s := invSubBytes (shiftRows s)
  pre_eq _ _ _ := rfl
  mix := invMixColumns
  unmix := mixColumns
  unmix_mix := mixColumns_invMixColumns
  mix_add := invMixColumns_add
  eq _ _ := rfl

end AesSpec.Differential
