import Verif.Proofs.Lawful
import Verif.Proofs.RustLemmas
/-! The FIPS-197 key expansion as recurrences, and round keys as bytes. -/
namespace Aes
open Rust AesSpec Fips197

section
variable {n : Nat} (nk : Nat) (key : Vector Byte n)

theorem keyExpansion_init {i : Nat} (h : i < nk) : keyExpansion nk key i = wordAt key i := by
  rw [keyExpansion, dif_pos (Or.inl h)]

theorem keyExpansion_next {i : Nat} (hnk : 0 < nk) :
    keyExpansion nk key (i + nk) = Word.add (keyExpansion nk key i)
      (if i % nk = 0 then
        Word.add (subWord (rotWord (keyExpansion nk key (i + nk - 1)))) (rcon (i / nk + 1))
       else if nk > 6 ∧ i % nk = 4 then subWord (keyExpansion nk key (i + nk - 1))
       else keyExpansion nk key (i + nk - 1)) := by
  rw [keyExpansion, dif_neg (by omega)]
  have h1 : (i + nk) % nk = i % nk := by simp
  have h2 : (i + nk) / nk = i / nk + 1 := Nat.add_div_right i hnk
  rw [h1, h2, Nat.add_sub_cancel]

/-- First word of group `g + 1`. -/
theorem keyExpansion_first (g : Nat) (hnk : 0 < nk) :
    keyExpansion nk key (nk * (g + 1)) = Word.add (keyExpansion nk key (nk * g))
      (Word.add (subWord (rotWord (keyExpansion nk key (nk * g + (nk - 1))))) (rcon (g + 1))) := by
  have h := keyExpansion_next nk key (i := nk * g) hnk
  rw [if_pos (by simp), Nat.mul_div_cancel_left g hnk] at h
  rw [show nk * (g + 1) = nk * g + nk by rw [Nat.mul_succ], h,
    show nk * g + nk - 1 = nk * g + (nk - 1) by omega]

/-- Fifth word of group `g + 1`, for `nk > 6`. -/
theorem keyExpansion_fifth (g : Nat) (hnk : 6 < nk) :
    keyExpansion nk key (nk * (g + 1) + 4) = Word.add (keyExpansion nk key (nk * g + 4))
      (subWord (keyExpansion nk key (nk * (g + 1) + 3))) := by
  have h := keyExpansion_next nk key (i := nk * g + 4) (by omega)
  have hm : (nk * g + 4) % nk = 4 := by
    rw [Nat.mul_add_mod]; exact Nat.mod_eq_of_lt (by omega)
  rw [if_neg (by omega), if_pos ⟨hnk, hm⟩] at h
  rw [show nk * (g + 1) + 4 = nk * g + 4 + nk by rw [Nat.mul_succ]; omega, h,
    show nk * g + 4 + nk - 1 = nk * (g + 1) + 3 by rw [Nat.mul_succ]; omega]

/-- The other words of group `g + 1`. -/
theorem keyExpansion_rest (g j : Nat) (hj : j + 1 < nk) (h4 : nk > 6 → j ≠ 3) :
    keyExpansion nk key (nk * (g + 1) + (j + 1)) = Word.add (keyExpansion nk key (nk * g + (j + 1)))
      (keyExpansion nk key (nk * (g + 1) + j)) := by
  have h := keyExpansion_next nk key (i := nk * g + (j + 1)) (by omega)
  have hm : (nk * g + (j + 1)) % nk = j + 1 := by
    rw [Nat.mul_add_mod]; exact Nat.mod_eq_of_lt hj
  rw [if_neg (by omega), if_neg (by rintro ⟨h6, h7⟩; have := h4 h6; omega)] at h
  rw [show nk * (g + 1) + (j + 1) = nk * g + (j + 1) + nk by rw [Nat.mul_succ]; omega, h,
    show nk * g + (j + 1) + nk - 1 = nk * (g + 1) + j by rw [Nat.mul_succ]; omega]
end

theorem getElem_roundKeyBytes (w : Nat → Word) (r i : Nat) (hi : i < 16) :
    (roundKeyBytes w r)[i] = w (4 * r + i / 4) ⟨i % 4, by omega⟩ := by
  simp [roundKeyBytes]

theorem keyWords_roundKeyBytes (w : Nat → Word) (r : Nat) (c : Fin 4) :
    keyWords (roundKeyBytes w r) c = w (4 * r + c.val) := by
  funext j
  simp only [keyWords, getElem_roundKeyBytes]
  congr 2
  · omega
  · omega

/-- Sixteen bytes are round key `r` iff their four words are. -/
theorem eq_roundKeyBytes {v : Bytes 16} {w : Nat → Word} {r : Nat}
    (h0 : keyWords v 0 = w (4 * r)) (h1 : keyWords v 1 = w (4 * r + 1))
    (h2 : keyWords v 2 = w (4 * r + 2)) (h3 : keyWords v 3 = w (4 * r + 3)) :
    v = roundKeyBytes w r := by
  apply Vector.ext
  intro i hi
  rw [getElem_roundKeyBytes]
  have key : ∀ c : Fin 4, keyWords v c = w (4 * r + c.val) := by
    intro c
    match c with
    | 0 => exact h0
    | 1 => exact h1
    | 2 => exact h2
    | 3 => exact h3
  rw [← key ⟨i / 4, by omega⟩]
  simp only [keyWords]
  congr 1
  omega

theorem wordAt_eq {n : Nat} (key : Vector Byte n) (i : Nat) (h : 4 * i + 3 < n) (j : Fin 4) :
    wordAt key i j = key[4 * i + j.val] := by
  simp [wordAt, List.getD, show 4 * i + j.val < n by omega]

/-- `Rcon[j]` for the rounds that occur. -/
theorem rcon_vals :
    rcon 1 = (fun i => if i = 0 then 0x01#8 else 0#8) ∧ rcon 2 = (fun i => if i = 0 then 0x02#8 else 0#8) ∧
    rcon 3 = (fun i => if i = 0 then 0x04#8 else 0#8) ∧ rcon 4 = (fun i => if i = 0 then 0x08#8 else 0#8) ∧
    rcon 5 = (fun i => if i = 0 then 0x10#8 else 0#8) ∧ rcon 6 = (fun i => if i = 0 then 0x20#8 else 0#8) ∧
    rcon 7 = (fun i => if i = 0 then 0x40#8 else 0#8) ∧ rcon 8 = (fun i => if i = 0 then 0x80#8 else 0#8) ∧
    rcon 9 = (fun i => if i = 0 then 0x1b#8 else 0#8) ∧ rcon 10 = (fun i => if i = 0 then 0x36#8 else 0#8) := by
  have h : ∀ j b, pow 0x02#8 (j - 1) = b → rcon j = (fun i => if i = 0 then b else 0#8) := by
    intro j b h; funext i; simp [rcon, h]
  refine ⟨h _ _ ?_, h _ _ ?_, h _ _ ?_, h _ _ ?_, h _ _ ?_, h _ _ ?_, h _ _ ?_, h _ _ ?_, h _ _ ?_, h _ _ ?_⟩ <;>
    decide +kernel

/-- The round constant word with byte `b`. -/
def rconW (b : Byte) : Word := fun i => if i = 0 then b else 0#8

theorem Word.add_comm (a b : Word) : Word.add a b = Word.add b a := by
  funext i; simp [Word.add, BitVec.xor_comm]
theorem Word.add_assoc (a b c : Word) : Word.add (Word.add a b) c = Word.add a (Word.add b c) := by
  funext i; simp [Word.add, BitVec.xor_assoc]

/-! ### one step of each key schedule, as a statement about four/six words -/

/-- The four words that follow `(a, b, c, d)` when the last word before is `t`. -/
theorem ke128_step (key : Vector Byte 16) (r : Nat) {v v' : Bytes 16} {b : Byte}
    (hb : rcon (r + 1) = rconW b)
    (hv : v = roundKeyBytes (keyExpansion 4 key) r)
    (h0 : keyWords v' 0 = Word.add (keyWords v 0) (Word.add (subWord (rotWord (keyWords v 3))) (rconW b)))
    (h1 : keyWords v' 1 = Word.add (keyWords v 1) (keyWords v' 0))
    (h2 : keyWords v' 2 = Word.add (keyWords v 2) (keyWords v' 1))
    (h3 : keyWords v' 3 = Word.add (keyWords v 3) (keyWords v' 2)) :
    v' = roundKeyBytes (keyExpansion 4 key) (r + 1) := by
  subst hv
  simp only [keyWords_roundKeyBytes] at h0 h1 h2 h3
  have e0 : keyWords v' 0 = keyExpansion 4 key (4 * (r + 1)) := by
    rw [h0, keyExpansion_first 4 key r (by omega), hb]; rfl
  have e1 : keyWords v' 1 = keyExpansion 4 key (4 * (r + 1) + 1) := by
    rw [h1, e0]; exact (keyExpansion_rest 4 key r 0 (by omega) (by omega)).symm
  have e2 : keyWords v' 2 = keyExpansion 4 key (4 * (r + 1) + 2) := by
    rw [h2, e1]; exact (keyExpansion_rest 4 key r 1 (by omega) (by omega)).symm
  have e3 : keyWords v' 3 = keyExpansion 4 key (4 * (r + 1) + 3) := by
    rw [h3, e2]; exact (keyExpansion_rest 4 key r 2 (by omega) (by omega)).symm
  exact eq_roundKeyBytes e0 e1 e2 e3

/-- Odd-to-even step of the 256-bit schedule (round key `2g + 2` from `2g` and `2g + 1`). -/
theorem ke256_step1 (key : Vector Byte 32) (g : Nat) {v0 v1 v' : Bytes 16} {b : Byte}
    (hb : rcon (g + 1) = rconW b)
    (hv0 : v0 = roundKeyBytes (keyExpansion 8 key) (2 * g))
    (hv1 : v1 = roundKeyBytes (keyExpansion 8 key) (2 * g + 1))
    (h0 : keyWords v' 0 = Word.add (keyWords v0 0) (Word.add (subWord (rotWord (keyWords v1 3))) (rconW b)))
    (h1 : keyWords v' 1 = Word.add (keyWords v0 1) (keyWords v' 0))
    (h2 : keyWords v' 2 = Word.add (keyWords v0 2) (keyWords v' 1))
    (h3 : keyWords v' 3 = Word.add (keyWords v0 3) (keyWords v' 2)) :
    v' = roundKeyBytes (keyExpansion 8 key) (2 * g + 2) := by
  subst hv0 hv1
  simp only [keyWords_roundKeyBytes] at h0 h1 h2 h3
  have i0 : 4 * (2 * g) = 8 * g := by omega
  have i1 : 4 * (2 * g + 1) + 3 = 8 * g + 7 := by omega
  have i2 : 4 * (2 * g + 2) = 8 * (g + 1) := by omega
  have e0 : keyWords v' 0 = keyExpansion 8 key (8 * (g + 1)) := by
    rw [h0, keyExpansion_first 8 key g (by omega), hb, ← i0]
    show _ = Word.add (keyExpansion 8 key (4 * (2 * g))) (Word.add (subWord (rotWord (keyExpansion 8 key (4 * (2 * g) + 7)))) _)
    rw [show 4 * (2 * g) + 7 = 4 * (2 * g + 1) + 3 by omega]; rfl
  have e1 : keyWords v' 1 = keyExpansion 8 key (8 * (g + 1) + 1) := by
    rw [h1, e0, i0]; exact (keyExpansion_rest 8 key g 0 (by omega) (by omega)).symm
  have e2 : keyWords v' 2 = keyExpansion 8 key (8 * (g + 1) + 2) := by
    rw [h2, e1, i0]; exact (keyExpansion_rest 8 key g 1 (by omega) (by omega)).symm
  have e3 : keyWords v' 3 = keyExpansion 8 key (8 * (g + 1) + 3) := by
    rw [h3, e2, i0]; exact (keyExpansion_rest 8 key g 2 (by omega) (by omega)).symm
  apply eq_roundKeyBytes <;> rw [i2] <;> assumption

/-- Even-to-odd step of the 256-bit schedule (round key `2g + 3` from `2g + 1` and `2g + 2`). -/
theorem ke256_step2 (key : Vector Byte 32) (g : Nat) {v0 v1 v' : Bytes 16}
    (hv0 : v0 = roundKeyBytes (keyExpansion 8 key) (2 * g + 1))
    (hv1 : v1 = roundKeyBytes (keyExpansion 8 key) (2 * g + 2))
    (h0 : keyWords v' 0 = Word.add (keyWords v0 0) (subWord (keyWords v1 3)))
    (h1 : keyWords v' 1 = Word.add (keyWords v0 1) (keyWords v' 0))
    (h2 : keyWords v' 2 = Word.add (keyWords v0 2) (keyWords v' 1))
    (h3 : keyWords v' 3 = Word.add (keyWords v0 3) (keyWords v' 2)) :
    v' = roundKeyBytes (keyExpansion 8 key) (2 * g + 3) := by
  subst hv0 hv1
  simp only [keyWords_roundKeyBytes] at h0 h1 h2 h3
  have i0 : 4 * (2 * g + 1) = 8 * g + 4 := by omega
  have i1 : 4 * (2 * g + 2) = 8 * (g + 1) := by omega
  have i2 : 4 * (2 * g + 3) = 8 * (g + 1) + 4 := by omega
  have e0 : keyWords v' 0 = keyExpansion 8 key (8 * (g + 1) + 4) := by
    rw [h0, i0, i1]; exact (keyExpansion_fifth 8 key g (by omega)).symm
  have e1 : keyWords v' 1 = keyExpansion 8 key (8 * (g + 1) + 5) := by
    rw [h1, e0, i0]; exact (keyExpansion_rest 8 key g 4 (by omega) (by omega)).symm
  have e2 : keyWords v' 2 = keyExpansion 8 key (8 * (g + 1) + 6) := by
    rw [h2, e1, i0]; exact (keyExpansion_rest 8 key g 5 (by omega) (by omega)).symm
  have e3 : keyWords v' 3 = keyExpansion 8 key (8 * (g + 1) + 7) := by
    rw [h3, e2, i0]; exact (keyExpansion_rest 8 key g 6 (by omega) (by omega)).symm
  apply eq_roundKeyBytes <;> rw [i2] <;> assumption

/-- Six-word step of the 192-bit schedule: group `g + 1` from group `g`. -/
theorem ke192_step (key : Vector Byte 24) (g : Nat) {s s' : Fin 6 → Word} {b : Byte}
    (hb : rcon (g + 1) = rconW b)
    (hs : ∀ j : Fin 6, s j = keyExpansion 6 key (6 * g + j.val))
    (h0 : s' 0 = Word.add (s 0) (Word.add (subWord (rotWord (s 5))) (rconW b)))
    (h1 : s' 1 = Word.add (s 1) (s' 0)) (h2 : s' 2 = Word.add (s 2) (s' 1))
    (h3 : s' 3 = Word.add (s 3) (s' 2)) (h4 : s' 4 = Word.add (s 4) (s' 3))
    (h5 : s' 5 = Word.add (s 5) (s' 4)) :
    ∀ j : Fin 6, s' j = keyExpansion 6 key (6 * (g + 1) + j.val) := by
  simp only [hs] at h0 h1 h2 h3 h4 h5
  have e0 : s' 0 = keyExpansion 6 key (6 * (g + 1)) := by
    rw [h0, keyExpansion_first 6 key g (by omega), hb]; rfl
  have e1 : s' 1 = keyExpansion 6 key (6 * (g + 1) + 1) := by
    rw [h1, e0]; exact (keyExpansion_rest 6 key g 0 (by omega) (by omega)).symm
  have e2 : s' 2 = keyExpansion 6 key (6 * (g + 1) + 2) := by
    rw [h2, e1]; exact (keyExpansion_rest 6 key g 1 (by omega) (by omega)).symm
  have e3 : s' 3 = keyExpansion 6 key (6 * (g + 1) + 3) := by
    rw [h3, e2]; exact (keyExpansion_rest 6 key g 2 (by omega) (by omega)).symm
  have e4 : s' 4 = keyExpansion 6 key (6 * (g + 1) + 4) := by
    rw [h4, e3]; exact (keyExpansion_rest 6 key g 3 (by omega) (by omega)).symm
  have e5 : s' 5 = keyExpansion 6 key (6 * (g + 1) + 5) := by
    rw [h5, e4]; exact (keyExpansion_rest 6 key g 4 (by omega) (by omega)).symm
  intro j
  match j with
  | 0 => exact e0
  | 1 => exact e1
  | 2 => exact e2
  | 3 => exact e3
  | 4 => exact e4
  | 5 => exact e5

/-- The key itself is round key 0 (128-bit). -/
theorem ke128_init (key : Vector Byte 16) : key = roundKeyBytes (keyExpansion 4 key) 0 := by
  apply Vector.ext; intro i hi
  rw [getElem_roundKeyBytes, keyExpansion_init 4 key (by omega), wordAt_eq key _ (by omega)]
  congr 1; simp; omega
theorem ke256_init0 (key : Vector Byte 32) : slice key 0 16 (by omega) = roundKeyBytes (keyExpansion 8 key) 0 := by
  apply Vector.ext; intro i hi
  rw [getElem_roundKeyBytes, keyExpansion_init 8 key (by omega), wordAt_eq key _ (by omega), getElem_slice]
  congr 1; simp; omega
theorem ke256_init1 (key : Vector Byte 32) : slice key 16 16 (by omega) = roundKeyBytes (keyExpansion 8 key) 1 := by
  apply Vector.ext; intro i hi
  rw [getElem_roundKeyBytes, keyExpansion_init 8 key (by omega), wordAt_eq key _ (by omega), getElem_slice]
  congr 1; simp; omega

/-- A vector literal of 11 is `ofFn` when its entries are. -/
theorem ext_ofFn {α : Type} {N : Nat} {v : Vector α N} {f : Fin N → α} (h : ∀ i : Fin N, v[i.val] = f i) :
    v = Vector.ofFn f := by
  apply Vector.ext; intro i hi; simp [← h ⟨i, hi⟩]

theorem lit11 {α : Type} (K : Nat → α) :
    (#v[K 0, K 1, K 2, K 3, K 4, K 5, K 6, K 7, K 8, K 9, K 10] : Vector α 11) = Vector.ofFn fun r => K r := by
  apply ext_ofFn; intro i
  match i with
  | 0 | 1 | 2 | 3 | 4 | 5 | 6 | 7 | 8 | 9 | 10 => rfl

theorem lit13 {α : Type} (K : Nat → α) :
    (#v[K 0, K 1, K 2, K 3, K 4, K 5, K 6, K 7, K 8, K 9, K 10, K 11, K 12] : Vector α 13) = Vector.ofFn fun r => K r := by
  apply ext_ofFn; intro i
  match i with
  | 0 | 1 | 2 | 3 | 4 | 5 | 6 | 7 | 8 | 9 | 10 | 11 | 12 => rfl

theorem lit15 {α : Type} (K : Nat → α) :
    (#v[K 0, K 1, K 2, K 3, K 4, K 5, K 6, K 7, K 8, K 9, K 10, K 11, K 12, K 13, K 14] : Vector α 15) = Vector.ofFn fun r => K r := by
  apply ext_ofFn; intro i
  match i with
  | 0 | 1 | 2 | 3 | 4 | 5 | 6 | 7 | 8 | 9 | 10 | 11 | 12 | 13 | 14 => rfl

end Aes
