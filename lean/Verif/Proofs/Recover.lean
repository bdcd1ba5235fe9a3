import Verif.Spec.Recover
import Verif.Proofs.Eval
/-! The key schedule run backwards is the inverse of the key schedule. -/
namespace Aes
open AesSpec Fips197

theorem Word.add_cancel (a b : Word) : Word.add (Word.add a b) b = a := by
  funext i; simp only [Word.add]; rw [BitVec.xor_assoc, BitVec.xor_self, BitVec.xor_zero]

theorem unexpand_of (t : Nat → Word → Word) (nk m : Nat) (hnk : 2 ≤ nk) (f w : Nat → Word)
    (hw : ∀ i, nk ≤ i → w i = Word.add (w (i - nk)) (t i (w (i - 1))))
    (hf : ∀ i, m ≤ i → i < m + nk → f i = w i) : ∀ k j, m + nk - j ≤ k → j < m + nk → unexpand t nk m f j = w j := by
  intro k
  induction k with
  | zero => intro j h1 h2; omega
  | succ k ih =>
    intro j h1 h2
    rw [unexpand]
    by_cases h : m ≤ j
    · rw [dif_pos (Or.inl h), hf j h h2]
    · rw [dif_neg (by omega), ih (j + nk) (by omega) (by omega), ih (j + nk - 1) (by omega) (by omega),
        hw (j + nk) (by omega), show j + nk - nk = j by omega, Word.add_cancel]

theorem expansion_rec (t : Nat → Word → Word) (nk : Nat) (hnk : 2 ≤ nk) {n : Nat} (key : Vector Byte n) (i : Nat) (h : nk ≤ i) :
    keyExpansionWith t nk key i = Word.add (keyExpansionWith t nk key (i - nk)) (t i (keyExpansionWith t nk key (i - 1))) := by
  rw [keyExpansionWith, dif_neg (by omega)]

theorem wordAt_ofFn {n : Nat} (g : Nat → Word) (i : Nat) (h : i < n) :
    wordAt (Vector.ofFn fun k : Fin (4 * n) => g (k.val / 4) ⟨k.val % 4, by omega⟩) i = g i := by
  funext j
  simp only [wordAt]
  rw [List.getD_eq_getElem?_getD, List.getElem?_eq_getElem (by simp; omega)]
  simp only [Vector.getElem_toList, Vector.getElem_ofFn, Option.getD_some]
  have e1 : (4 * i + j.val) / 4 = i := by omega
  have e2 : (4 * i + j.val) % 4 = j.val := by omega
  simp only [e1, e2, Fin.eta]

theorem wordAt_ext {n : Nat} {a b : Vector Byte (4 * n)} (h : ∀ i, i < n → wordAt a i = wordAt b i) : a = b := by
  apply Vector.ext; intro i hi
  have h1 := congrFun (h (i / 4) (by omega)) ⟨i % 4, by omega⟩
  simp only [wordAt] at h1
  have e : 4 * (i / 4) + i % 4 = i := by omega
  rw [e, List.getD_eq_getElem?_getD, List.getD_eq_getElem?_getD, List.getElem?_eq_getElem (by simpa using hi),
    List.getElem?_eq_getElem (by simpa using hi)] at h1
  simpa using h1

/-- The recovered key has the given words. -/
theorem expansion_recover (t : Nat → Word → Word) (nk m : Nat) (hnk : 2 ≤ nk) (d : Vector Byte (4 * nk)) (j : Nat) (hj : j < nk) :
    keyExpansionWith t nk (recoverKey t nk m d) (m + j) = wordAt d j := by
  have hall : ∀ i, i < m + nk → keyExpansionWith t nk (recoverKey t nk m d) i = unexpand t nk m (fun j => wordAt d (j - m)) i := by
    intro i
    induction i using Nat.strongRecOn with
    | _ i ih =>
      intro hi
      by_cases h : i < nk
      · rw [keyExpansionWith, dif_pos (Or.inl h), recoverKey, wordAt_ofFn _ _ h]
      · rw [expansion_rec t nk hnk _ i (by omega), ih (i - nk) (by omega) (by omega), ih (i - 1) (by omega) (by omega)]
        conv => lhs; arg 1; rw [unexpand]
        rw [dif_neg (by omega), show i - nk + nk = i by omega, Word.add_cancel]
  rw [hall _ (by omega), unexpand, dif_pos (Or.inl (by omega)), show m + j - m = j by omega]

/-- Only the recovered key has them. -/
theorem recover_expansion (t : Nat → Word → Word) (nk m : Nat) (hnk : 2 ≤ nk) (d key : Vector Byte (4 * nk))
    (h : ∀ j, j < nk → keyExpansionWith t nk key (m + j) = wordAt d j) : recoverKey t nk m d = key := by
  apply wordAt_ext
  intro i hi
  rw [recoverKey, wordAt_ofFn _ _ hi]
  rw [unexpand_of t nk m hnk _ (keyExpansionWith t nk key) (expansion_rec t nk hnk key)
    (fun k h1 h2 => by rw [← h (k - m) (by omega), show m + (k - m) = k by omega]) (m + nk) i (by omega) (by omega)]
  rw [keyExpansionWith, dif_pos (Or.inl hi)]

theorem recover_iff (t : Nat → Word → Word) (nk m : Nat) (hnk : 2 ≤ nk) (d key : Vector Byte (4 * nk)) :
    (∀ j, j < nk → keyExpansionWith t nk key (m + j) = wordAt d j) ↔ key = recoverKey t nk m d :=
  ⟨fun h => (recover_expansion t nk m hnk d key h).symm, fun h j hj => by rw [h, expansion_recover t nk m hnk d j hj]⟩

/-- A round key is its four words. -/
theorem roundKeyBytes_words (w : Nat → Word) (r : Nat) (b : Bytes 16) :
    roundKeyBytes w r = b ↔ ∀ j, j < 4 → w (4 * r + j) = wordAt b j := by
  have e : ∀ j, j < 4 → wordAt (roundKeyBytes w r) j = w (4 * r + j) := fun j hj =>
    wordAt_ofFn (n := 4) (fun k => w (4 * r + k)) j hj
  constructor
  · intro h j hj; rw [← e j hj, h]
  · intro h; exact wordAt_ext (n := 4) fun i hi => by rw [e i hi, h i hi]

theorem wordAt_append_left {n k : Nat} (a : Bytes (4 * n)) (b : Bytes k) (i : Nat) (h : i < n) : wordAt (a ++ b) i = wordAt a i := by
  funext j
  simp only [wordAt, Vector.toList_append]
  rw [List.getD_eq_getElem?_getD, List.getD_eq_getElem?_getD, List.getElem?_append_left (by simp; omega)]
theorem wordAt_append_right {n k : Nat} (a : Bytes (4 * n)) (b : Bytes k) (i : Nat) (h : n ≤ i) :
    wordAt (a ++ b) i = wordAt b (i - n) := by
  funext j
  simp only [wordAt, Vector.toList_append]
  rw [List.getD_eq_getElem?_getD, List.getD_eq_getElem?_getD, List.getElem?_append_right (by simp; omega)]
  simp only [Vector.length_toList]
  rw [show 4 * i + j.val - 4 * n = 4 * (i - n) + j.val by omega]

end Aes
