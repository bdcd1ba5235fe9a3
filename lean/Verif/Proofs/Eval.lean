import Verif.Spec.KeyVariants
import Verif.Proofs.EndToEnd
/-! A structurally recursive key expansion, so that the kernel can run concrete instances. -/
namespace Aes
open AesSpec Fips197

/-- A word as a tuple. -/
abbrev W4 := Byte × Byte × Byte × Byte
def W4.w (x : W4) : Word := fun i => match i with | 0 => x.1 | 1 => x.2.1 | 2 => x.2.2.1 | 3 => x.2.2.2
def W4.of (w : Word) : W4 := (w 0, w 1, w 2, w 3)
theorem W4.w_of (w : Word) : (W4.of w).w = w := by
  funext i; match i with | 0 => rfl | 1 => rfl | 2 => rfl | 3 => rfl

/-- The words `w[i-1], ..., w[0]`. -/
def expandList (t : Nat → Word → Word) (nk : Nat) {n : Nat} (key : Vector Byte n) : Nat → List W4
  | 0 => []
  | i + 1 =>
    let l := expandList t nk key i
    (if i < nk then W4.of (wordAt key i)
      else W4.of (Word.add (l.getD (nk - 1) (0, 0, 0, 0)).w (t i (l.getD 0 (0, 0, 0, 0)).w))) :: l

theorem expandList_ok (t : Nat → Word → Word) (nk : Nat) (hnk : 0 < nk) {n : Nat} (key : Vector Byte n) (m : Nat) :
    ∀ i, i < m → ((expandList t nk key m).getD (m - 1 - i) (0, 0, 0, 0)).w = keyExpansionWith t nk key i := by
  induction m with
  | zero => intro i hi; omega
  | succ m ih =>
    intro i hi
    simp only [expandList]
    by_cases h : i = m
    · subst h
      have e : i + 1 - 1 - i = 0 := by omega
      rw [e]
      simp only [List.getD_cons_zero]
      rw [keyExpansionWith]
      by_cases hk : i < nk
      · rw [if_pos hk, dif_pos (Or.inl hk), W4.w_of]
      · rw [if_neg hk, dif_neg (by omega), W4.w_of]
        rw [← ih (i - nk) (by omega), ← ih (i - 1) (by omega)]
        rw [show i - 1 - (i - nk) = nk - 1 by omega, show i - 1 - (i - 1) = 0 by omega]
    · have e : m + 1 - 1 - i = (m - 1 - i) + 1 := by omega
      rw [e, List.getD_cons_succ]
      exact ih i (by omega)

/-- Round keys out of the reversed list of words. -/
def rkOf (l : List W4) (r : Nat) : Bytes 16 :=
  let a := l.getD (l.length - 1 - 4 * r) (0, 0, 0, 0)
  let b := l.getD (l.length - 1 - (4 * r + 1)) (0, 0, 0, 0)
  let c := l.getD (l.length - 1 - (4 * r + 2)) (0, 0, 0, 0)
  let d := l.getD (l.length - 1 - (4 * r + 3)) (0, 0, 0, 0)
  #v[a.1, a.2.1, a.2.2.1, a.2.2.2, b.1, b.2.1, b.2.2.1, b.2.2.2,
     c.1, c.2.1, c.2.2.1, c.2.2.2, d.1, d.2.1, d.2.2.1, d.2.2.2]

theorem length_expandList (t : Nat → Word → Word) (nk : Nat) {n : Nat} (key : Vector Byte n) (m : Nat) :
    (expandList t nk key m).length = m := by
  induction m with
  | zero => rfl
  | succ m ih => rw [expandList, List.length_cons, ih]

theorem rkOf_ok (t : Nat → Word → Word) (nk : Nat) (hnk : 0 < nk) {n : Nat} (key : Vector Byte n) (m r : Nat) (h : 4 * r + 3 < m) :
    roundKeyBytes (keyExpansionWith t nk key) r = rkOf (expandList t nk key m) r := by
  have hw := expandList_ok t nk hnk key m
  apply Vector.ext; intro i hi
  simp only [roundKeyBytes, Vector.getElem_ofFn]
  rw [← hw (4 * r + i / 4) (by omega)]
  simp only [rkOf, length_expandList]
  rcases (show i = 0 ∨ i = 1 ∨ i = 2 ∨ i = 3 ∨ i = 4 ∨ i = 5 ∨ i = 6 ∨ i = 7 ∨ i = 8 ∨ i = 9 ∨ i = 10 ∨ i = 11 ∨ i = 12 ∨
    i = 13 ∨ i = 14 ∨ i = 15 by omega) with h | h | h | h | h | h | h | h | h | h | h | h | h | h | h | h <;> subst h <;> rfl

/-- A wrong word makes its round key wrong. -/
theorem roundKey_ne {w w' : Nat → Word} (i : Nat) (h : w i ≠ w' i) : roundKeyBytes w (i / 4) ≠ roundKeyBytes w' (i / 4) := by
  intro hh
  refine h (funext fun j => ?_)
  have hj : 4 * (i % 4) + j.val < 16 := by omega
  have := congrArg (fun v : Bytes 16 => v[4 * (i % 4) + j.val]) hh
  simp only [roundKeyBytes, Vector.getElem_ofFn] at this
  have e1 : 4 * (i / 4) + (4 * (i % 4) + j.val) / 4 = i := by omega
  have e2 : (4 * (i % 4) + j.val) % 4 = j.val := by omega
  simpa only [e1, e2, Fin.eta] using this

/-- Right words make a right round key. -/
theorem roundKey_congr' {w w' : Nat → Word} (r : Nat) (h : ∀ j, j < 4 → w (4 * r + j) = w' (4 * r + j)) :
    roundKeyBytes w r = roundKeyBytes w' r := by
  apply Vector.ext; intro i hi
  simp only [roundKeyBytes, Vector.getElem_ofFn]
  rw [h (i / 4) (by omega)]
/-- A step at which two expansions do the same to words that are the same. -/
theorem expansion_next (t t' : Nat → Word → Word) (nk : Nat) {n : Nat} (key : Vector Byte n) (i : Nat) (hnk : 0 < nk) (hi : nk ≤ i)
    (ht : ∀ x, t i x = t' i x) (h1 : keyExpansionWith t nk key (i - nk) = keyExpansionWith t' nk key (i - nk))
    (h2 : keyExpansionWith t nk key (i - 1) = keyExpansionWith t' nk key (i - 1)) :
    keyExpansionWith t nk key i = keyExpansionWith t' nk key i := by
  rw [keyExpansionWith, dif_neg (by omega), h1, h2, ht]
  conv => rhs; rw [keyExpansionWith, dif_neg (by omega)]
/-- The words of the key itself. -/
theorem expansion_base (t t' : Nat → Word → Word) (nk : Nat) {n : Nat} (key : Vector Byte n) (i : Nat) (hi : i < nk) :
    keyExpansionWith t nk key i = keyExpansionWith t' nk key i := by
  rw [keyExpansionWith, dif_pos (Or.inl hi), keyExpansionWith, dif_pos (Or.inl hi)]
end Aes
