import Verif.Proofs.SpecLemmas
import Verif.Proofs.ColumnsFips
/-! Blocks as four 32-bit words, and the FIPS-197 rounds word by word. -/
namespace Aes
open Rust AesSpec Fips197 Columns

/-- The `u32` whose bytes in memory are the FIPS word `w`. -/
def ofWord (e : Endian) (w : Word) : U32 := fromNe e 32 (Vector.ofFn w)

theorem wordOf_ofWord (e : Endian) (w : Word) : wordOf e (ofWord e w) = w := by
  funext j
  simp only [wordOf, ofWord, toNe_fromNe e 32 (n := 4) _ (by omega), Vector.getElem_ofFn]
theorem ofWord_wordOf (e : Endian) (x : U32) : ofWord e (wordOf e x) = x := by
  unfold ofWord wordOf
  rw [show (Vector.ofFn fun j : Fin 4 => (toNe e 4 x)[j.val]) = toNe e 4 x by
    apply Vector.ext; intro i hi; simp]
  exact fromNe_toNe e x (by omega)
theorem wordOf_inj {e : Endian} {x y : U32} (h : wordOf e x = wordOf e y) : x = y := by
  rw [← ofWord_wordOf e x, h, ofWord_wordOf]
theorem ofWord_add (e : Endian) (a b : Word) : ofWord e (Word.add a b) = ofWord e a ^^^ ofWord e b := by
  apply wordOf_inj (e := e); rw [wordOf_xor, wordOf_ofWord, wordOf_ofWord, wordOf_ofWord]

/-- The four words of sixteen bytes. -/
def qw (e : Endian) (v : Bytes 16) (c : Fin 4) : U32 := ofWord e (keyWords v c)
/-- The sixteen bytes of four words. -/
def qb (e : Endian) (w0 w1 w2 w3 : U32) : Bytes 16 :=
  Vector.ofFn fun i : Fin 16 => wordOf e (match i.val / 4 with | 0 => w0 | 1 => w1 | 2 => w2 | _ => w3) ⟨i.val % 4, by omega⟩

theorem bytes_ext {v v' : Bytes 16} (h : ∀ c, keyWords v c = keyWords v' c) : v = v' := by
  apply Vector.ext; intro i hi
  have := congrFun (h ⟨i / 4, by omega⟩) ⟨i % 4, by omega⟩
  simp only [keyWords] at this
  rw [show v[i] = v[4 * (i / 4) + i % 4] by congr 1; omega,
    show v'[i] = v'[4 * (i / 4) + i % 4] by congr 1; omega]
  exact this

theorem fin4_cases {P : Fin 4 → Prop} (h0 : P 0) (h1 : P 1) (h2 : P 2) (h3 : P 3) : ∀ c, P c := by
  intro c; match c with | 0 => exact h0 | 1 => exact h1 | 2 => exact h2 | 3 => exact h3

section
variable (e : Endian) (w0 w1 w2 w3 : U32)
theorem keyWords_qb_aux (c j : Fin 4) : keyWords (qb e w0 w1 w2 w3) c j =
    wordOf e (match c.val with | 0 => w0 | 1 => w1 | 2 => w2 | _ => w3) j := by
  simp only [keyWords, qb, Vector.getElem_ofFn]
  have h1 : (4 * c.val + j.val) / 4 = c.val := by omega
  have h2 : (⟨(4 * c.val + j.val) % 4, by omega⟩ : Fin 4) = j := by ext; simp
  rw [h1, h2]
@[simp] theorem kw_qb0 : keyWords (qb e w0 w1 w2 w3) 0 = wordOf e w0 := funext (keyWords_qb_aux e w0 w1 w2 w3 0)
@[simp] theorem kw_qb1 : keyWords (qb e w0 w1 w2 w3) 1 = wordOf e w1 := funext (keyWords_qb_aux e w0 w1 w2 w3 1)
@[simp] theorem kw_qb2 : keyWords (qb e w0 w1 w2 w3) 2 = wordOf e w2 := funext (keyWords_qb_aux e w0 w1 w2 w3 2)
@[simp] theorem kw_qb3 : keyWords (qb e w0 w1 w2 w3) 3 = wordOf e w3 := funext (keyWords_qb_aux e w0 w1 w2 w3 3)
end

theorem qb_qw (e : Endian) (v : Bytes 16) : qb e (qw e v 0) (qw e v 1) (qw e v 2) (qw e v 3) = v := by
  apply bytes_ext
  apply fin4_cases <;> simp [qw, wordOf_ofWord]
theorem qw_qb0 (e : Endian) (w0 w1 w2 w3 : U32) : qw e (qb e w0 w1 w2 w3) 0 = w0 := by
  simp [qw, ofWord_wordOf]
theorem qw_qb1 (e : Endian) (w0 w1 w2 w3 : U32) : qw e (qb e w0 w1 w2 w3) 1 = w1 := by
  simp [qw, ofWord_wordOf]
theorem qw_qb2 (e : Endian) (w0 w1 w2 w3 : U32) : qw e (qb e w0 w1 w2 w3) 2 = w2 := by
  simp [qw, ofWord_wordOf]
theorem qw_qb3 (e : Endian) (w0 w1 w2 w3 : U32) : qw e (qb e w0 w1 w2 w3) 3 = w3 := by
  simp [qw, ofWord_wordOf]
theorem qb_inj {e : Endian} {a b c d a' b' c' d' : U32} (h : qb e a b c d = qb e a' b' c' d') :
    a = a' ∧ b = b' ∧ c = c' ∧ d = d' := by
  refine ⟨?_, ?_, ?_, ?_⟩
  · rw [← qw_qb0 e a b c d, h, qw_qb0]
  · rw [← qw_qb1 e a b c d, h, qw_qb1]
  · rw [← qw_qb2 e a b c d, h, qw_qb2]
  · rw [← qw_qb3 e a b c d, h, qw_qb3]

theorem keyWords_xorB (a b : Bytes 16) (c : Fin 4) : keyWords (xorB a b) c = Word.add (keyWords a c) (keyWords b c) := by
  funext j; simp [keyWords, getElem_xorB, Word.add]

theorem qb_and (e : Endian) (a0 a1 a2 a3 b0 b1 b2 b3 : U32) :
    qb e (a0 &&& b0) (a1 &&& b1) (a2 &&& b2) (a3 &&& b3) = andB (qb e a0 a1 a2 a3) (qb e b0 b1 b2 b3) := by
  apply Vector.ext; intro i hi
  simp only [qb, andB, Vector.getElem_ofFn, Vector.getElem_zipWith, wordOf]
  split <;> simp [toNe_and]
theorem qb_or (e : Endian) (a0 a1 a2 a3 b0 b1 b2 b3 : U32) :
    qb e (a0 ||| b0) (a1 ||| b1) (a2 ||| b2) (a3 ||| b3) = orB (qb e a0 a1 a2 a3) (qb e b0 b1 b2 b3) := by
  apply Vector.ext; intro i hi
  simp only [qb, orB, Vector.getElem_ofFn, Vector.getElem_zipWith, wordOf]
  split <;> simp [toNe_or]
theorem qb_xor (e : Endian) (a0 a1 a2 a3 b0 b1 b2 b3 : U32) :
    qb e (a0 ^^^ b0) (a1 ^^^ b1) (a2 ^^^ b2) (a3 ^^^ b3) = xorB (qb e a0 a1 a2 a3) (qb e b0 b1 b2 b3) := by
  apply Vector.ext; intro i hi
  simp only [qb, xorB, Vector.getElem_ofFn, Vector.getElem_zipWith, wordOf]
  split <;> simp [toNe_xor]
theorem qb_not (e : Endian) (a0 a1 a2 a3 : U32) :
    qb e (~~~a0) (~~~a1) (~~~a2) (~~~a3) = notB (qb e a0 a1 a2 a3) := by
  apply Vector.ext; intro i hi
  simp only [qb, notB, Vector.getElem_ofFn, Vector.getElem_map, wordOf]
  split <;> simp [toNe_not e 4 _ (show 8 * 4 ≤ 32 by omega)]
theorem qb_zero (e : Endian) : qb e 0 0 0 0 = zeroB 16 := by
  apply Vector.ext; intro i hi
  simp only [qb, zeroB, Vector.getElem_ofFn, Vector.getElem_replicate, wordOf]
  split <;> simp only [toNe_zero e 4, Vector.getElem_replicate]
theorem qb_eq_zero (e : Endian) (a0 a1 a2 a3 : U32) :
    qb e a0 a1 a2 a3 = zeroB 16 ↔ (a0 ||| a1 ||| a2 ||| a3) = 0 := by
  rw [or_eq_zero, or_eq_zero, or_eq_zero]
  constructor
  · intro h
    rw [← qb_zero e] at h
    obtain ⟨h0, h1, h2, h3⟩ := qb_inj h
    exact ⟨⟨⟨h0, h1⟩, h2⟩, h3⟩
  · rintro ⟨⟨⟨rfl, rfl⟩, rfl⟩, rfl⟩; exact qb_zero e

/-! ### FIPS rounds by words -/
/-- MixColumns on one column. -/
def mixWord (w : Word) : Word := fun r => mul 0x02#8 (w r) ^^^ mul 0x03#8 (w (r + 1)) ^^^ w (r + 2) ^^^ w (r + 3)
/-- InvMixColumns on one column. -/
def invMixWord (w : Word) : Word := fun r =>
  mul 0x0e#8 (w r) ^^^ mul 0x0b#8 (w (r + 1)) ^^^ mul 0x0d#8 (w (r + 2)) ^^^ mul 0x09#8 (w (r + 3))

theorem ofBytes_kw (v : Bytes 16) (r c : Fin 4) : State.ofBytes v r c = keyWords v c r := by
  simp only [State.ofBytes, keyWords]; congr 1; omega
theorem keyWords_toBytes (s : State) (c : Fin 4) : keyWords (State.toBytes s) c = fun r => s r c := by
  funext r
  simp only [keyWords, State.toBytes, Vector.getElem_ofFn]
  congr <;> omega

theorem kw_encRound (s k : Bytes 16) (c : Fin 4) : keyWords (encRound s k) c =
    Word.add (mixWord fun r => sbox (keyWords s (c + r) r)) (keyWords k c) := by
  rw [encRound, keyWords_toBytes]; funext r
  simp only [addRoundKey, mixColumns, shiftRows, subBytes, ofBytes_kw, Word.add, mixWord]
theorem kw_encLastRound (s k : Bytes 16) (c : Fin 4) : keyWords (encLastRound s k) c =
    Word.add (fun r => sbox (keyWords s (c + r) r)) (keyWords k c) := by
  rw [encLastRound, keyWords_toBytes]; funext r
  simp only [addRoundKey, shiftRows, subBytes, ofBytes_kw, Word.add]
theorem kw_decRound (s k : Bytes 16) (c : Fin 4) : keyWords (decRound s k) c =
    Word.add (invMixWord fun r => invSbox (keyWords s (c - r) r)) (keyWords k c) := by
  rw [decRound, keyWords_toBytes]; funext r
  simp only [addRoundKey, invMixColumns, invShiftRows, invSubBytes, ofBytes_kw, Word.add, invMixWord]
theorem kw_decLastRound (s k : Bytes 16) (c : Fin 4) : keyWords (decLastRound s k) c =
    Word.add (fun r => invSbox (keyWords s (c - r) r)) (keyWords k c) := by
  rw [decLastRound, keyWords_toBytes]; funext r
  simp only [addRoundKey, invShiftRows, invSubBytes, ofBytes_kw, Word.add]
theorem kw_mixCols (s : Bytes 16) (c : Fin 4) : keyWords (mixCols s) c = mixWord (keyWords s c) := by
  rw [mixCols, keyWords_toBytes]; funext r
  simp only [mixColumns, ofBytes_kw, mixWord]
theorem kw_invMixCols (s : Bytes 16) (c : Fin 4) : keyWords (invMixCols s) c = invMixWord (keyWords s c) := by
  rw [invMixCols, keyWords_toBytes]; funext r
  simp only [invMixColumns, ofBytes_kw, invMixWord]

/-- Word constructor. -/
def mkW (a b c d : Byte) : Word := fun i => match i with | 0 => a | 1 => b | 2 => c | 3 => d
theorem word_eq {w w' : Word} (h0 : w 0 = w' 0) (h1 : w 1 = w' 1) (h2 : w 2 = w' 2) (h3 : w 3 = w' 3) : w = w' :=
  funext (fin4_cases h0 h1 h2 h3)

theorem mixWord_eq (w : Word) : mixWord w =
    Word.add (Word.add (Word.add (mkW (mul 0x02#8 (w 0)) (w 0) (w 0) (mul 0x03#8 (w 0)))
      (mkW (mul 0x03#8 (w 1)) (mul 0x02#8 (w 1)) (w 1) (w 1)))
      (mkW (w 2) (mul 0x03#8 (w 2)) (mul 0x02#8 (w 2)) (w 2)))
      (mkW (w 3) (w 3) (mul 0x03#8 (w 3)) (mul 0x02#8 (w 3))) := by
  apply word_eq <;> simp [mixWord, mkW, Word.add] <;> try xor_norm
theorem invMixWord_eq (w : Word) : invMixWord w =
    Word.add (Word.add (Word.add
      (mkW (mul 0x0e#8 (w 0)) (mul 0x09#8 (w 0)) (mul 0x0d#8 (w 0)) (mul 0x0b#8 (w 0)))
      (mkW (mul 0x0b#8 (w 1)) (mul 0x0e#8 (w 1)) (mul 0x09#8 (w 1)) (mul 0x0d#8 (w 1))))
      (mkW (mul 0x0d#8 (w 2)) (mul 0x0b#8 (w 2)) (mul 0x0e#8 (w 2)) (mul 0x09#8 (w 2))))
      (mkW (mul 0x09#8 (w 3)) (mul 0x0d#8 (w 3)) (mul 0x0b#8 (w 3)) (mul 0x0e#8 (w 3))) := by
  apply word_eq <;> simp [invMixWord, mkW, Word.add] <;> try xor_norm
theorem word_parts (w : Word) : w =
    Word.add (Word.add (Word.add (mkW (w 0) 0 0 0) (mkW 0 (w 1) 0 0)) (mkW 0 0 (w 2) 0)) (mkW 0 0 0 (w 3)) := by
  apply word_eq <;> simp [mkW, Word.add]

end Aes
