import Verif.Proofs.Gf
import Verif.Proofs.Decide
import Verif.Spec.Block
/-! How differences between two states spread through the steps of a round. -/
namespace Aes.Diffusion
open AesSpec Fips197

/-- A circulant combination of the rows of a column. -/
def lin (cf : Fin 4 → Byte) (s : State) : State := fun r c =>
  mul (cf 0) (s r c) ^^^ mul (cf 1) (s (r + 1) c) ^^^ mul (cf 2) (s (r + 2) c) ^^^ mul (cf 3) (s (r + 3) c)

/-- The coefficients of MIXCOLUMNS. -/
def cfM : Fin 4 → Byte := fun k => match k with | 0 => 0x02 | 1 => 0x03 | 2 => 0x01 | 3 => 0x01
/-- The coefficients of INVMIXCOLUMNS. -/
def cfI : Fin 4 → Byte := fun k => match k with | 0 => 0x0e | 1 => 0x0b | 2 => 0x0d | 3 => 0x09

theorem mul_01 : ∀ b : Byte, mul 0x01#8 b = b := by decide +kernel
theorem mixColumns_lin : mixColumns = lin cfM := by
  funext s r c
  show _ = mul 0x02#8 _ ^^^ mul 0x03#8 _ ^^^ mul 0x01#8 _ ^^^ mul 0x01#8 _
  rw [mul_01, mul_01]; rfl
theorem invMixColumns_lin : invMixColumns = lin cfI := by funext s r c; rfl

theorem mul_ne_zero_M : ∀ b : Byte, mul 0x01#8 b = 0 ∨ mul 0x02#8 b = 0 ∨ mul 0x03#8 b = 0 → b = 0 := by decide +kernel
theorem mul_ne_zero_I : ∀ b : Byte, mul 0x09#8 b = 0 ∨ mul 0x0b#8 b = 0 ∨ mul 0x0d#8 b = 0 ∨ mul 0x0e#8 b = 0 → b = 0 := by decide +kernel
theorem cfM_ne (k : Fin 4) (b : Byte) (h : mul (cfM k) b = 0) : b = 0 := by
  refine mul_ne_zero_M b ?_
  match k with
  | 0 => exact Or.inr (Or.inl h)
  | 1 => exact Or.inr (Or.inr h)
  | 2 => exact Or.inl h
  | 3 => exact Or.inl h
theorem cfI_ne (k : Fin 4) (b : Byte) (h : mul (cfI k) b = 0) : b = 0 := by
  refine mul_ne_zero_I b ?_
  match k with
  | 0 => exact Or.inr (Or.inr (Or.inr h))
  | 1 => exact Or.inr (Or.inl h)
  | 2 => exact Or.inr (Or.inr (Or.inl h))
  | 3 => exact Or.inl h

theorem mul_inj {c : Byte} (hc : ∀ b, mul c b = 0 → b = 0) {a b : Byte} (h : mul c a = mul c b) : a = b := by
  have : mul c (a ^^^ b) = 0 := by rw [mul_xor, h, BitVec.xor_self]; rfl
  have := hc _ this
  exact BitVec.xor_eq_zero_iff.mp this

/-- If one byte of a column differs, all bytes of the combination differ. -/
theorem lin_one {cf : Fin 4 → Byte} (hc : ∀ k b, mul (cf k) b = 0 → b = 0) {s s' : State} {c r0 : Fin 4}
    (h : ∀ r, r ≠ r0 → s r c = s' r c) (h0 : s r0 c ≠ s' r0 c) (r : Fin 4) : lin cf s r c ≠ lin cf s' r c := by
  intro e
  apply h0
  unfold lin at e
  by_cases e0 : r = r0
  · subst e0
    rw [h (r + 1) (by omega), h (r + 2) (by omega), h (r + 3) (by omega)] at e
    simp only [BitVec.xor_left_inj] at e
    exact mul_inj (hc 0) e
  by_cases e1 : r + 1 = r0
  · rw [h r e0, h (r + 2) (by omega), h (r + 3) (by omega)] at e
    simp only [BitVec.xor_left_inj, BitVec.xor_right_inj] at e
    exact e1 ▸ mul_inj (hc 1) e
  by_cases e2 : r + 2 = r0
  · rw [h r e0, h (r + 1) e1, h (r + 3) (by omega)] at e
    simp only [BitVec.xor_left_inj, BitVec.xor_right_inj] at e
    exact e2 ▸ mul_inj (hc 2) e
  · rw [h r e0, h (r + 1) e1, h (r + 2) e2] at e
    simp only [BitVec.xor_right_inj] at e
    have e3 : r + 3 = r0 := by omega
    exact e3 ▸ mul_inj (hc 3) e
/-- If no byte of a column differs, no byte of the combination does. -/
theorem lin_none (cf : Fin 4 → Byte) {s s' : State} {c : Fin 4} (h : ∀ r, s r c = s' r c) (r : Fin 4) : lin cf s r c = lin cf s' r c := by
  unfold lin; rw [h, h, h, h]

theorem sbox_inj {a b : Byte} : sbox a = sbox b ↔ a = b :=
  ⟨fun h => by rw [← invSbox_sbox a, h, invSbox_sbox], fun h => h ▸ rfl⟩
theorem invSbox_inj {a b : Byte} : invSbox a = invSbox b ↔ a = b :=
  ⟨fun h => by rw [← sbox_invSbox a, h, sbox_invSbox], fun h => h ▸ rfl⟩

/-- One round without the key, forwards. -/
def rnd (s : State) : State := mixColumns (shiftRows (subBytes s))
/-- One round without the key, backwards. -/
def irnd (s : State) : State := invMixColumns (invSubBytes (invShiftRows s))

/-- A difference in the byte at row `r0`, column `c0` only becomes a difference in the whole column `c0 - r0`, and nowhere else. -/
theorem rnd_one {s s' : State} {r0 c0 : Fin 4} (h : ∀ r c, s r c ≠ s' r c ↔ r = r0 ∧ c = c0) (r c : Fin 4) :
    rnd s r c ≠ rnd s' r c ↔ c = c0 - r0 := by
  have hs : ∀ r c, shiftRows (subBytes s) r c ≠ shiftRows (subBytes s') r c ↔ r = r0 ∧ c + r = c0 := by
    intro r c
    simp only [shiftRows, subBytes, ne_eq, sbox_inj]
    exact h r (c + r)
  unfold rnd
  rw [mixColumns_lin]
  by_cases hc : c = c0 - r0
  · refine iff_of_true (lin_one cfM_ne (r0 := r0) (fun r hr => ?_) ((hs r0 c).mpr ⟨rfl, by omega⟩) r) hc
    apply Classical.byContradiction
    intro hn
    exact hr ((hs r c).mp hn).1
  · refine iff_of_false (fun hn => hn (lin_none cfM (fun r => ?_) r)) hc
    apply Classical.byContradiction
    intro hn
    obtain ⟨h1, h2⟩ := (hs r c).mp hn
    exact hc (by omega)
/-- A difference in exactly one column becomes a difference everywhere. -/
theorem rnd_col {s s' : State} {c0 : Fin 4} (h : ∀ r c, s r c ≠ s' r c ↔ c = c0) (r c : Fin 4) : rnd s r c ≠ rnd s' r c := by
  have hs : ∀ r c, shiftRows (subBytes s) r c ≠ shiftRows (subBytes s') r c ↔ c + r = c0 := by
    intro r c
    simp only [shiftRows, subBytes, ne_eq, sbox_inj]
    exact h r (c + r)
  unfold rnd
  rw [mixColumns_lin]
  refine lin_one cfM_ne (r0 := c0 - c) (fun r hr => ?_) ((hs _ c).mpr (by omega)) r
  apply Classical.byContradiction
  intro hn
  have := (hs r c).mp hn
  exact hr (by omega)
theorem irnd_one {s s' : State} {r0 c0 : Fin 4} (h : ∀ r c, s r c ≠ s' r c ↔ r = r0 ∧ c = c0) (r c : Fin 4) :
    irnd s r c ≠ irnd s' r c ↔ c = c0 + r0 := by
  have hs : ∀ r c, invSubBytes (invShiftRows s) r c ≠ invSubBytes (invShiftRows s') r c ↔ r = r0 ∧ c - r = c0 := by
    intro r c
    simp only [invShiftRows, invSubBytes, ne_eq, invSbox_inj]
    exact h r (c - r)
  unfold irnd
  rw [invMixColumns_lin]
  by_cases hc : c = c0 + r0
  · refine iff_of_true (lin_one cfI_ne (r0 := r0) (fun r hr => ?_) ((hs r0 c).mpr ⟨rfl, by omega⟩) r) hc
    apply Classical.byContradiction
    intro hn
    exact hr ((hs r c).mp hn).1
  · refine iff_of_false (fun hn => hn (lin_none cfI (fun r => ?_) r)) hc
    apply Classical.byContradiction
    intro hn
    obtain ⟨h1, h2⟩ := (hs r c).mp hn
    exact hc (by omega)
theorem irnd_col {s s' : State} {c0 : Fin 4} (h : ∀ r c, s r c ≠ s' r c ↔ c = c0) (r c : Fin 4) : irnd s r c ≠ irnd s' r c := by
  have hs : ∀ r c, invSubBytes (invShiftRows s) r c ≠ invSubBytes (invShiftRows s') r c ↔ c - r = c0 := by
    intro r c
    simp only [invShiftRows, invSubBytes, ne_eq, invSbox_inj]
    exact h r (c - r)
  unfold irnd
  rw [invMixColumns_lin]
  refine lin_one cfI_ne (r0 := c - c0) (fun r hr => ?_) ((hs _ c).mpr (by omega)) r
  apply Classical.byContradiction
  intro hn
  have := (hs r c).mp hn
  exact hr (by omega)

/-! ### The branch number of MIXCOLUMNS -/

def coefs : List Byte := [0x01, 0x02, 0x03]
/-- The products of two coefficients are six distinct multiples of a byte. -/
theorem six : ∀ a : Byte, a ≠ 0 →
    [a, xtimes a, xtimes a ^^^ a, xtimes (xtimes a), xtimes (xtimes a) ^^^ a, xtimes (xtimes a) ^^^ xtimes a].Pairwise (· ≠ ·) := by
  decide +kernel
/-- Which of the six multiples a product of two coefficients is. -/
def which (p s : Byte) : Fin 6 :=
  if p = 1 then (if s = 1 then 0 else if s = 2 then 1 else 2)
  else if p = 2 then (if s = 1 then 1 else if s = 2 then 3 else 5)
  else (if s = 1 then 2 else if s = 2 then 5 else 4)
/-- The six multiples. -/
def sixth (a : Byte) : Fin 6 → Byte := fun i =>
  [a, xtimes a, xtimes a ^^^ a, xtimes (xtimes a), xtimes (xtimes a) ^^^ a, xtimes (xtimes a) ^^^ xtimes a][i]
theorem sixth_inj {a : Byte} (ha : a ≠ 0) {i j : Fin 6} (h : sixth a i = sixth a j) : i = j := by
  have hp := List.pairwise_iff_getElem.mp (six a ha)
  rcases Nat.lt_trichotomy i.1 j.1 with hl | hl | hl
  · exact absurd h (hp i.1 j.1 i.2 j.2 hl)
  · exact Fin.ext hl
  · exact absurd h.symm (hp j.1 i.1 j.2 i.2 hl)
theorem mul_mul {p s : Byte} (hp : p ∈ coefs) (hs : s ∈ coefs) (a : Byte) : mul p (mul s a) = sixth a (which p s) := by
  simp only [coefs, List.mem_cons, List.not_mem_nil, or_false] at hp hs
  have n1 : (0x01 : Byte) = 0x01#8 := rfl
  have n2 : (0x02 : Byte) = 0x02#8 := rfl
  have n3 : (0x03 : Byte) = 0x03#8 := rfl
  rcases hp with rfl | rfl | rfl <;> rcases hs with rfl | rfl | rfl <;>
    simp only [n1, n2, n3, mul_01, mul_02, mul_03, xtimes_xor]
  all_goals try rfl
  show xtimes (xtimes a) ^^^ xtimes a ^^^ (xtimes a ^^^ a) = xtimes (xtimes a) ^^^ a
  rw [BitVec.xor_assoc, ← BitVec.xor_assoc (xtimes a), BitVec.xor_self, BitVec.zero_xor]
theorem solve2 {p q r s : Byte} (hp : p ∈ coefs) (hq : q ∈ coefs) (hr : r ∈ coefs) (hs : s ∈ coefs) (hd : which s p ≠ which q r) {a b : Byte}
    (h1 : mul p a ^^^ mul q b = 0) (h2 : mul r a ^^^ mul s b = 0) : a = 0 := by
  have h1' : mul p a = mul q b := BitVec.xor_eq_zero_iff.mp h1
  have h2' : mul r a = mul s b := BitVec.xor_eq_zero_iff.mp h2
  have hc : which s q = which q s := by
    simp only [coefs, List.mem_cons, List.not_mem_nil, or_false] at hq hs
    rcases hq with rfl | rfl | rfl <;> rcases hs with rfl | rfl | rfl <;> rfl
  have h : mul s (mul p a) = mul q (mul r a) := by
    rw [h1', h2', mul_mul hs hq, mul_mul hq hs, hc]
  rw [mul_mul hs hp, mul_mul hq hr] at h
  apply Classical.byContradiction
  intro hn
  exact hd (sixth_inj hn h)

/-- Coefficient of row `j` in row `i` of the result. -/
def coef (i j : Fin 4) : Byte := cfM (j - i)
theorem coef_mem (i j : Fin 4) : coef i j ∈ coefs := by revert i j; decide
theorem minors : ∀ i i' j j' : Fin 4, i ≠ i' → j ≠ j' → which (coef i' j') (coef i j) ≠ which (coef i j') (coef i' j) := by decide

/-- With all but two bytes of the column zero. -/
theorem lin_two {s : State} {c j j' : Fin 4} (hj : j ≠ j') (h : ∀ r, r ≠ j → r ≠ j' → s r c = 0) (i : Fin 4) :
    mixColumns s i c = mul (coef i j) (s j c) ^^^ mul (coef i j') (s j' c) := by
  have key : ∀ k k' : Fin 4, k ≠ k' → (∀ r, r ≠ i + k → r ≠ i + k' → s r c = 0) →
      lin cfM s i c = mul (cfM k) (s (i + k) c) ^^^ mul (cfM k') (s (i + k') c) := by
    intro k k' hk h
    have z : ∀ x : Fin 4, x ≠ k → x ≠ k' → s (i + x) c = 0#8 := fun x h1 h2 => h (i + x) (by omega) (by omega)
    have h0 : s i c = s (i + 0) c := by rw [Fin.add_zero]
    unfold lin
    rw [h0]
    match k, k', hk with
    | 0, 0, h | 1, 1, h | 2, 2, h | 3, 3, h => exact absurd rfl h
    | 0, 1, _ => rw [z 2 (by decide) (by decide), z 3 (by decide) (by decide), mul_zero, mul_zero, BitVec.xor_zero, BitVec.xor_zero]
    | 0, 2, _ => rw [z 1 (by decide) (by decide), z 3 (by decide) (by decide), mul_zero, mul_zero, BitVec.xor_zero, BitVec.xor_zero]
    | 0, 3, _ => rw [z 1 (by decide) (by decide), z 2 (by decide) (by decide), mul_zero, mul_zero, BitVec.xor_zero, BitVec.xor_zero]
    | 1, 2, _ => rw [z 0 (by decide) (by decide), z 3 (by decide) (by decide), mul_zero, mul_zero, BitVec.xor_zero, BitVec.zero_xor]
    | 1, 3, _ => rw [z 0 (by decide) (by decide), z 2 (by decide) (by decide), mul_zero, mul_zero, BitVec.xor_zero, BitVec.zero_xor]
    | 2, 3, _ => rw [z 0 (by decide) (by decide), z 1 (by decide) (by decide), mul_zero, mul_zero, BitVec.zero_xor, BitVec.zero_xor]
    | 1, 0, _ => rw [z 2 (by decide) (by decide), z 3 (by decide) (by decide), mul_zero, mul_zero, BitVec.xor_zero, BitVec.xor_zero, BitVec.xor_comm]
    | 2, 0, _ => rw [z 1 (by decide) (by decide), z 3 (by decide) (by decide), mul_zero, mul_zero, BitVec.xor_zero, BitVec.xor_zero, BitVec.xor_comm]
    | 3, 0, _ => rw [z 1 (by decide) (by decide), z 2 (by decide) (by decide), mul_zero, mul_zero, BitVec.xor_zero, BitVec.xor_zero, BitVec.xor_comm]
    | 2, 1, _ => rw [z 0 (by decide) (by decide), z 3 (by decide) (by decide), mul_zero, mul_zero, BitVec.xor_zero, BitVec.zero_xor, BitVec.xor_comm]
    | 3, 1, _ => rw [z 0 (by decide) (by decide), z 2 (by decide) (by decide), mul_zero, mul_zero, BitVec.xor_zero, BitVec.zero_xor, BitVec.xor_comm]
    | 3, 2, _ => rw [z 0 (by decide) (by decide), z 1 (by decide) (by decide), mul_zero, mul_zero, BitVec.zero_xor, BitVec.zero_xor, BitVec.xor_comm]
  have e : ∀ x : Fin 4, i + (x - i) = x := fun x => by omega
  have := key (j - i) (j' - i) (by omega) (by rw [e, e]; exact h)
  rw [mixColumns_lin, this, e, e]
  rfl

/-- How many of the four are set. -/
def wt (p : Fin 4 → Bool) : Nat := (p 0).toNat + (p 1).toNat + (p 2).toNat + (p 3).toNat
theorem all4 {P : Fin 4 → Prop} : (∀ r, P r) ↔ P 0 ∧ P 1 ∧ P 2 ∧ P 3 :=
  ⟨fun h => ⟨h 0, h 1, h 2, h 3⟩, fun ⟨a, b, c, d⟩ r => match r with | 0 => a | 1 => b | 2 => c | 3 => d⟩
theorem ex4 {P : Fin 4 → Prop} : (∃ r, P r) ↔ P 0 ∨ P 1 ∨ P 2 ∨ P 3 :=
  ⟨fun ⟨r, h⟩ => by match r with | 0 => exact Or.inl h | 1 => exact Or.inr (Or.inl h) | 2 => exact Or.inr (Or.inr (Or.inl h)) | 3 => exact Or.inr (Or.inr (Or.inr h)),
   fun h => by rcases h with h | h | h | h <;> exact ⟨_, h⟩⟩
theorem wt_cases (p : Fin 4 → Bool) :
    (∀ r, p r = false) ∨ (wt p = 1 ∧ ∃ j, p j = true ∧ ∀ r, r ≠ j → p r = false) ∨
    (wt p = 2 ∧ ∃ j j', j ≠ j' ∧ p j = true ∧ ∀ r, r ≠ j → r ≠ j' → p r = false) ∨ 3 ≤ wt p := by
  simp only [all4, ex4, wt]
  cases p 0 <;> cases p 1 <;> cases p 2 <;> cases p 3 <;> simp
theorem wt_two (q : Fin 4 → Bool) (h : ∀ i i', i ≠ i' → q i = false → q i' = false → False) : 3 ≤ wt q := by
  simp only [all4] at h
  simp only [wt]
  revert h
  cases q 0 <;> cases q 1 <;> cases q 2 <;> cases q 3 <;> simp
theorem wt_all (q : Fin 4 → Bool) (h : ∀ i, q i = true) : wt q = 4 := by simp only [wt, h]; rfl
/-- Patterns of zero and non-zero bytes that a column and its image can have. -/
theorem pattern (p q : Fin 4 → Bool) (hp : ∃ i, p i = true) (hq : ∃ i, q i = true)
    (h1 : ∀ j, p j = true → (∀ r, r ≠ j → p r = false) → ∀ i, q i = true)
    (h2 : ∀ j, q j = true → (∀ r, r ≠ j → q r = false) → ∀ i, p i = true)
    (h3 : ∀ j j' i i', j ≠ j' → i ≠ i' → (∀ r, r ≠ j → r ≠ j' → p r = false) → q i = false → q i' = false → p j = false) :
    5 ≤ wt p + wt q := by
  rcases wt_cases p with hz | ⟨w, j, hj, hr⟩ | ⟨w, j, j', hjj, hj, hr⟩ | w
  · obtain ⟨i, hi⟩ := hp; rw [hz i] at hi; cases hi
  · rw [w, wt_all q (h1 j hj hr)]; exact Nat.le_refl 5
  · have := wt_two q (fun i i' hi a b => by
      have := h3 j j' i i' hjj hi hr a b
      rw [hj] at this; cases this)
    omega
  · rcases wt_cases q with hz | ⟨w', j, hj, hr⟩ | ⟨w', _⟩ | w'
    · obtain ⟨i, hi⟩ := hq; rw [hz i] at hi; cases hi
    · have := wt_all p (h2 j hj hr); omega
    · omega
    · omega

/-- 1 if the byte is not zero. -/
def nz (b : Byte) : Nat := if b = 0 then 0 else 1

theorem column_branch (s : State) (c : Fin 4) (h : ∃ r, s r c ≠ 0) :
    5 ≤ nz (s 0 c) + nz (s 1 c) + nz (s 2 c) + nz (s 3 c) +
      (nz (mixColumns s 0 c) + nz (mixColumns s 1 c) + nz (mixColumns s 2 c) + nz (mixColumns s 3 c)) := by
  have en : ∀ b : Byte, nz b = (decide (b ≠ 0)).toNat := by
    intro b; unfold nz; by_cases hb : b = 0
    · rw [if_pos hb, decide_eq_false (fun h => h hb)]; rfl
    · rw [if_neg hb, decide_eq_true hb]; rfl
  simp only [en]
  have zl : ∀ cf r, lin cf (fun _ _ => 0#8) r c = 0 := by
    intro cf r; simp only [lin, mul_zero, BitVec.xor_zero]; rfl
  refine pattern (fun i => decide (s i c ≠ 0)) (fun i => decide (mixColumns s i c ≠ 0)) ?_ ?_ ?_ ?_ ?_
  · obtain ⟨r, hr⟩ := h; exact ⟨r, by simpa using hr⟩
  · apply Classical.byContradiction
    intro hn
    obtain ⟨r, hr⟩ := h
    apply hr
    have hz : ∀ i, mixColumns s i c = (fun _ _ => 0#8 : State) i c := by
      intro i
      apply Classical.byContradiction
      intro h2
      exact hn ⟨i, by simpa using h2⟩
    have := lin_none cfI (s := mixColumns s) (s' := fun _ _ => 0#8) (c := c) hz r
    rw [← invMixColumns_lin, invMixColumns_mixColumns, invMixColumns_lin, zl] at this
    exact this
  · intro j hj hr i
    have hj' : s j c ≠ 0 := by simpa using hj
    have := lin_one cfM_ne (s := s) (s' := fun _ _ => 0#8) (c := c) (r0 := j) (fun r h => by simpa using hr r h) hj' i
    rw [zl, ← mixColumns_lin] at this
    simpa using this
  · intro j hj hr i
    have hj' : mixColumns s j c ≠ 0 := by simpa using hj
    have := lin_one cfI_ne (s := mixColumns s) (s' := fun _ _ => 0#8) (c := c) (r0 := j) (fun r h => by simpa using hr r h) hj' i
    rw [zl, ← invMixColumns_lin, invMixColumns_mixColumns] at this
    simpa using this
  · intro j j' i i' hj hi hr h1 h2
    have h1' : mixColumns s i c = 0 := by simpa using h1
    have h2' : mixColumns s i' c = 0 := by simpa using h2
    have hz : ∀ r, r ≠ j → r ≠ j' → s r c = 0 := fun r a b => by simpa using hr r a b
    rw [lin_two hj hz] at h1' h2'
    have := solve2 (coef_mem _ _) (coef_mem _ _) (coef_mem _ _) (coef_mem _ _) (minors i i' j j' hi hj) h1' h2'
    simp [this]

end Aes.Diffusion
