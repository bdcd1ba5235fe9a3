import Verif.Rust
/-! Byte decomposition of machine words: `fromLe`/`toLe` and the bitwise operations. -/
namespace Rust

theorem getElem_toLe {n w : Nat} (x : BitVec w) (i : Nat) (h : i < n) :
    (toLe n x)[i] = x.extractLsb' (8 * i) 8 := by
  simp [toLe]

theorem getLsbD_foldrLe (w : Nat) (l : List U8) (k : Nat) (hk : k < w) :
    (List.foldr (fun (b : U8) (acc : BitVec w) => (acc <<< 8) ||| b.setWidth w) (0 : BitVec w) l).getLsbD k
      = (l.getD (k / 8) 0#8).getLsbD (k % 8) := by
  induction l generalizing k with
  | nil => simp
  | cons b l ih =>
    simp only [List.foldr, BitVec.getLsbD_or, BitVec.getLsbD_shiftLeft, hk, decide_true, Bool.true_and,
      BitVec.getLsbD_setWidth]
    by_cases h8 : k < 8
    · have h1 : k / 8 = 0 := by omega
      have h2 : k % 8 = k := by omega
      simp [h8, h1, h2]
    · have h1 : k / 8 = (k - 8) / 8 + 1 := by omega
      have h2 : k % 8 = (k - 8) % 8 := by omega
      rw [ih (k - 8) (by omega), h1, h2]
      simp [h8]
      rw [BitVec.getLsbD_of_ge b k (by omega)]; simp

theorem getLsbD_fromLe (w : Nat) {n : Nat} (v : Vector U8 n) (k : Nat) (hk : k < w) (hn : k < 8 * n) :
    (fromLe w v).getLsbD k = (v[k / 8]'(by omega)).getLsbD (k % 8) := by
  unfold fromLe
  rw [getLsbD_foldrLe w _ k hk]
  simp [List.getD, show k / 8 < n by omega]

/-- Byte `i` of a little-endian load. -/
theorem byte_fromLe (w : Nat) {n : Nat} (v : Vector U8 n) (i : Nat) (hi : i < n) (hw : 8 * n ≤ w) :
    (fromLe w v).extractLsb' (8 * i) 8 = v[i] := by
  apply BitVec.eq_of_getLsbD_eq
  intro j hj
  rw [BitVec.getLsbD_extractLsb', getLsbD_fromLe w v _ (by omega) (by omega)]
  have h1 : (8 * i + j) / 8 = i := by omega
  have h2 : (8 * i + j) % 8 = j := by omega
  simp [h1, h2, hj]

theorem toLe_fromLe (w : Nat) {n : Nat} (v : Vector U8 n) (hw : 8 * n ≤ w) : toLe n (fromLe w v) = v := by
  apply Vector.ext
  intro i hi
  rw [getElem_toLe, byte_fromLe w v i hi hw]

theorem fromLe_toLe {w n : Nat} (x : BitVec w) (hw : w ≤ 8 * n) : fromLe w (toLe n x) = x := by
  apply BitVec.eq_of_getLsbD_eq
  intro k hk
  rw [getLsbD_fromLe w _ k hk (by omega), getElem_toLe, BitVec.getLsbD_extractLsb']
  have : 8 * (k / 8) + k % 8 = k := by omega
  simp [this]; omega

theorem toLe_inj {w n : Nat} (hw : w ≤ 8 * n) {x y : BitVec w} (h : toLe n x = toLe n y) : x = y := by
  rw [← fromLe_toLe (n := n) x hw, h, fromLe_toLe y hw]

theorem toBe_fromBe (w : Nat) {n : Nat} (v : Vector U8 n) (hw : 8 * n ≤ w) : toBe n (fromBe w v) = v := by
  simp [toBe, fromBe, toLe_fromLe w v.reverse hw]
theorem fromBe_toBe {w n : Nat} (x : BitVec w) (hw : w ≤ 8 * n) : fromBe w (toBe n x) = x := by
  simp [toBe, fromBe, fromLe_toLe x hw]
theorem toNe_fromNe (e : Endian) (w : Nat) {n : Nat} (v : Vector U8 n) (hw : 8 * n ≤ w) :
    toNe e n (fromNe e w v) = v := by
  cases e
  · exact toLe_fromLe w v hw
  · exact toBe_fromBe w v hw
theorem fromNe_toNe (e : Endian) {w n : Nat} (x : BitVec w) (hw : w ≤ 8 * n) :
    fromNe e w (toNe e n x) = x := by
  cases e
  · exact fromLe_toLe x hw
  · exact fromBe_toBe x hw
theorem toNe_inj {e : Endian} {w n : Nat} (hw : w ≤ 8 * n) {x y : BitVec w} (h : toNe e n x = toNe e n y) :
    x = y := by
  rw [← fromNe_toNe e (n := n) x hw, h, fromNe_toNe e y hw]

theorem toLe_and {w} (n : Nat) (x y : BitVec w) :
    toLe n (x &&& y) = Vector.zipWith (· &&& ·) (toLe n x) (toLe n y) := by
  apply Vector.ext; intro i hi; simp [getElem_toLe, BitVec.extractLsb'_and]
theorem toLe_or {w} (n : Nat) (x y : BitVec w) :
    toLe n (x ||| y) = Vector.zipWith (· ||| ·) (toLe n x) (toLe n y) := by
  apply Vector.ext; intro i hi; simp [getElem_toLe, BitVec.extractLsb'_or]
theorem toLe_xor {w} (n : Nat) (x y : BitVec w) :
    toLe n (x ^^^ y) = Vector.zipWith (· ^^^ ·) (toLe n x) (toLe n y) := by
  apply Vector.ext; intro i hi; simp [getElem_toLe, BitVec.extractLsb'_xor]
theorem toLe_not {w} (n : Nat) (x : BitVec w) (hw : 8 * n ≤ w) :
    toLe n (~~~x) = (toLe n x).map (~~~ ·) := by
  apply Vector.ext; intro i hi
  simp only [getElem_toLe, Vector.getElem_map]
  apply BitVec.eq_of_getLsbD_eq
  intro j hj
  simp [hj]; omega
theorem toLe_zero {w} (n : Nat) : toLe n (0 : BitVec w) = Vector.replicate n 0#8 := by
  apply Vector.ext; intro i hi; simp [getElem_toLe]

theorem zipWith_reverse {α β γ} {n : Nat} (f : α → β → γ) (a : Vector α n) (b : Vector β n) :
    (Vector.zipWith f a b).reverse = Vector.zipWith f a.reverse b.reverse := by
  apply Vector.ext; intro i hi; simp [Vector.getElem_reverse]

theorem toNe_and {w} (e : Endian) (n : Nat) (x y : BitVec w) :
    toNe e n (x &&& y) = Vector.zipWith (· &&& ·) (toNe e n x) (toNe e n y) := by
  cases e <;> simp [toNe, toBe, toLe_and, zipWith_reverse]
theorem toNe_or {w} (e : Endian) (n : Nat) (x y : BitVec w) :
    toNe e n (x ||| y) = Vector.zipWith (· ||| ·) (toNe e n x) (toNe e n y) := by
  cases e <;> simp [toNe, toBe, toLe_or, zipWith_reverse]
theorem toNe_xor {w} (e : Endian) (n : Nat) (x y : BitVec w) :
    toNe e n (x ^^^ y) = Vector.zipWith (· ^^^ ·) (toNe e n x) (toNe e n y) := by
  cases e <;> simp [toNe, toBe, toLe_xor, zipWith_reverse]
theorem toNe_not {w} (e : Endian) (n : Nat) (x : BitVec w) (hw : 8 * n ≤ w) :
    toNe e n (~~~x) = (toNe e n x).map (~~~ ·) := by
  cases e
  · exact toLe_not n x hw
  · simp only [toNe, toBe, toLe_not n x hw]
    apply Vector.ext; intro i hi; simp [Vector.getElem_reverse]
theorem toNe_zero {w} (e : Endian) (n : Nat) : toNe e n (0 : BitVec w) = Vector.replicate n 0#8 := by
  cases e
  · exact toLe_zero n
  · simp only [toNe, toBe, toLe_zero]
    apply Vector.ext; intro i hi; simp

/-- A 32-bit word is determined by its four bytes. -/
theorem word_ext {x y : U32} (h : ∀ i, i < 4 → x.extractLsb' (8 * i) 8 = y.extractLsb' (8 * i) 8) : x = y := by
  apply toLe_inj (n := 4) (by decide)
  apply Vector.ext; intro i hi
  rw [getElem_toLe, getElem_toLe, h i hi]

theorem shr_setWidth {w : Nat} (x : BitVec w) (s : Nat) : (x >>> s).setWidth 8 = x.extractLsb' s 8 := by
  apply BitVec.eq_of_getLsbD_eq
  intro j hj
  simp [hj]

/-- Bytes of a rotation right by one byte. -/
theorem byte_rotateRight8 (x : U32) (i : Nat) (hi : i < 4) :
    (x.rotateRight 8).extractLsb' (8 * i) 8 = x.extractLsb' (8 * ((i + 1) % 4)) 8 := by
  apply BitVec.eq_of_getLsbD_eq
  intro j hj
  simp only [BitVec.getLsbD_extractLsb', hj, decide_true, Bool.true_and, BitVec.getLsbD_rotateRight]
  have : i = 0 ∨ i = 1 ∨ i = 2 ∨ i = 3 := by omega
  rcases this with rfl | rfl | rfl | rfl
  · simp [show j < 24 by omega]
  · simp [show 8 + j < 24 by omega]; congr 1; omega
  · simp [show 16 + j < 24 by omega]; congr 1; omega
  · simp [show ¬ (24 + j < 24) by omega]; omega

theorem toLe_rotateRight8 (x : U32) :
    toLe 4 (x.rotateRight 8) = #v[(toLe 4 x)[1], (toLe 4 x)[2], (toLe 4 x)[3], (toLe 4 x)[0]] := by
  apply Vector.ext; intro i hi
  rw [getElem_toLe, byte_rotateRight8 x i hi]
  have : i = 0 ∨ i = 1 ∨ i = 2 ∨ i = 3 := by omega
  rcases this with rfl | rfl | rfl | rfl <;> simp [getElem_toLe]

end Rust
