import Verif.Proofs.Columns
import Verif.Spec.KeyVariants
/-! The column recurrence in terms of FIPS-197 words. -/
namespace Aes.Columns
open Rust AesSpec Fips197

theorem wordOf_xor (e : Endian) (a b : U32) : wordOf e (a ^^^ b) = Word.add (wordOf e a) (wordOf e b) := by
  funext j
  simp only [wordOf, Word.add, toNe_xor, Vector.getElem_zipWith]

theorem wordOf_load (e : Endian) {n : Nat} (key : Vector U8 n) (i : Nat) :
    wordOf e (loadWord e key i) = wordAt key i := by
  funext j
  simp only [wordOf, loadWord]
  simp only [toNe_fromNe e 32 (n := 4) _ (by omega), Vector.getElem_ofFn, wordAt]

/-- The columns hold the words of a key expansion, `t` being what `first` and `fifth` do to `temp`. -/
theorem wordOf_colRec (e : Endian) {n : Nat} (key : Vector U8 n) (nk : Nat)
    (first : Nat → U32 → U32 → U32 → U32) (fifth : U32 → U32 → U32) (t : Nat → Word → Word) (hi : Nat)
    (h1 : ∀ i old prev, i < hi → nk ≤ i → i % nk = 0 →
      wordOf e (first i old prev (RCON.toList.getD (i / nk - 1) 0)) = Word.add (wordOf e old) (t i (wordOf e prev)))
    (h5 : ∀ i old prev, nk > 6 → i % nk = 4 →
      wordOf e (fifth old prev) = Word.add (wordOf e old) (t i (wordOf e prev)))
    (hr : ∀ i w, i % nk ≠ 0 → ¬ (nk > 6 ∧ i % nk = 4) → t i w = w) (i : Nat) (hlt : i < hi) :
    wordOf e (colRec nk first fifth (loadWord e key) i) = keyExpansionWith t nk key i := by
  induction i using Nat.strongRecOn with
  | _ i ih =>
    rw [keyExpansionWith]
    by_cases h : i < nk ∨ nk = 0
    · rw [dif_pos h, colRec, dif_pos h, wordOf_load]
    · rw [dif_neg h, ← ih (i - nk) (by omega) (by omega), ← ih (i - 1) (by omega) (by omega)]
      by_cases hm : i % nk = 0
      · rw [colRec_first _ _ _ (by omega) (by omega) hm, h1 _ _ _ hlt (by omega) hm]
      · by_cases h4 : nk > 6 ∧ i % nk = 4
        · rw [colRec_fifth _ _ _ (by omega) h4.1 h4.2, h5 i _ _ h4.1 h4.2]
        · rw [colRec_rest _ _ _ (by omega) (by omega) hm (by omega), wordOf_xor, hr i _ hm h4]

theorem block_bytes_ok (e : Endian) {N : Nat} (W : Nat → U32) :
    block_bytes e (Vector.ofFn (fun i : Fin (4 * N) => W i.val)) =
      Vector.ofFn fun r : Fin N => roundKeyBytes (fun i => wordOf e (W i)) r.val := by
  apply Vector.ext; intro r hr
  simp only [block_bytes, Vector.getElem_ofFn]
  apply Vector.ext; intro i hi
  simp only [Vector.getElem_ofFn, getElem_roundKeyBytes, wordOf]

theorem roundKeyBytes_congr {w w' : Nat → Word} {r : Nat} (h : ∀ i, i < 4 * r + 4 → w i = w' i) :
    roundKeyBytes w r = roundKeyBytes w' r := by
  apply Vector.ext; intro i hi
  rw [getElem_roundKeyBytes, getElem_roundKeyBytes, h _ (by omega)]

/-- Columns as round keys, for a schedule computing `keyExpansionWith t`. -/
theorem blocks_ok (e : Endian) {n N : Nat} (key : Vector U8 n) (nk : Nat)
    (first : Nat → U32 → U32 → U32 → U32) (fifth : U32 → U32 → U32) (t : Nat → Word → Word)
    (h1 : ∀ i old prev, i < 4 * N → nk ≤ i → i % nk = 0 →
      wordOf e (first i old prev (RCON.toList.getD (i / nk - 1) 0)) = Word.add (wordOf e old) (t i (wordOf e prev)))
    (h5 : ∀ i old prev, nk > 6 → i % nk = 4 →
      wordOf e (fifth old prev) = Word.add (wordOf e old) (t i (wordOf e prev)))
    (hr : ∀ i w, i % nk ≠ 0 → ¬ (nk > 6 ∧ i % nk = 4) → t i w = w) :
    block_bytes e (Vector.ofFn (fun i : Fin (4 * N) => colRec nk first fifth (loadWord e key) i.val)) =
      Vector.ofFn fun r : Fin N => roundKeyBytes (keyExpansionWith t nk key) r.val := by
  rw [block_bytes_ok]
  apply Vector.ext; intro r hr'
  simp only [Vector.getElem_ofFn]
  apply roundKeyBytes_congr
  intro i hi
  exact wordOf_colRec e key nk first fifth t (4 * N) h1 h5 hr i (by omega)

/-- The low byte of `RCON[k]` is the FIPS round constant. -/
theorem RCON_rcon : ∀ k < 10, RCON.toList.getD k 0 = (pow 0x02#8 k).setWidth 32 := by decide +kernel

theorem wordOf_RCON_le (k : Nat) (hk : k < 10) : wordOf .little (RCON.toList.getD k 0) = rcon (k + 1) := by
  rw [RCON_rcon k hk]
  funext j
  simp only [wordOf, toNe, rcon, Nat.add_sub_cancel]
  generalize pow 0x02#8 k = b
  match j with
  | 0 | 1 | 2 | 3 => revert b; decide +kernel

theorem wordOf_rotr8_le (x : U32) : wordOf .little (x.rotateRight 8) = rotWord (wordOf .little x) := by
  funext j
  simp only [wordOf, toNe, toLe_rotateRight8, rotWord]
  match j with
  | 0 | 1 | 2 | 3 => simp

section
variable (e : Endian) (first : Nat → U32 → U32 → U32 → U32) (fifth : U32 → U32 → U32)

/-- The standard schedule, 128-bit keys. -/
theorem blocks_std_128 (key : Vector U8 16)
    (h1 : ∀ i old prev k, k < 10 → wordOf e (first i old prev (RCON.toList.getD k 0)) =
      Word.add (wordOf e old) (Word.add (subWord (rotWord (wordOf e prev))) (rcon (k + 1)))) :
    block_bytes e (N := 11) (Vector.ofFn (fun i : Fin 44 => colRec 4 first fifth (loadWord e key) i.val)) =
      Vector.ofFn fun r : Fin 11 => roundKeyBytes (keyExpansion 4 key) r.val := by
  rw [show keyExpansion 4 key = keyExpansionWith (stdTemp 4) 4 key from
    funext fun i => (keyExpansionWith_std 4 key i).symm]
  refine blocks_ok e (N := 11) key 4 first fifth (stdTemp 4) ?_ (by intros; omega) ?_
  · intro i old prev hi h4 hm
    rw [h1 _ _ _ _ (by omega), stdTemp, if_pos hm, show i / 4 - 1 + 1 = i / 4 by omega]
  · intro i w h h'; rw [stdTemp, if_neg h, if_neg h']

/-- The standard schedule, 192-bit keys. -/
theorem blocks_std_192 (key : Vector U8 24)
    (h1 : ∀ i old prev k, k < 10 → wordOf e (first i old prev (RCON.toList.getD k 0)) =
      Word.add (wordOf e old) (Word.add (subWord (rotWord (wordOf e prev))) (rcon (k + 1)))) :
    block_bytes e (N := 13) (Vector.ofFn (fun i : Fin 52 => colRec 6 first fifth (loadWord e key) i.val)) =
      Vector.ofFn fun r : Fin 13 => roundKeyBytes (keyExpansion 6 key) r.val := by
  rw [show keyExpansion 6 key = keyExpansionWith (stdTemp 6) 6 key from
    funext fun i => (keyExpansionWith_std 6 key i).symm]
  refine blocks_ok e (N := 13) key 6 first fifth (stdTemp 6) ?_ (by intros; omega) ?_
  · intro i old prev hi h4 hm
    rw [h1 _ _ _ _ (by omega), stdTemp, if_pos hm, show i / 6 - 1 + 1 = i / 6 by omega]
  · intro i w h h'; rw [stdTemp, if_neg h, if_neg h']

/-- The standard schedule, 256-bit keys. -/
theorem blocks_std_256 (key : Vector U8 32)
    (h1 : ∀ i old prev k, k < 10 → wordOf e (first i old prev (RCON.toList.getD k 0)) =
      Word.add (wordOf e old) (Word.add (subWord (rotWord (wordOf e prev))) (rcon (k + 1))))
    (h5 : ∀ old prev, wordOf e (fifth old prev) = Word.add (wordOf e old) (subWord (wordOf e prev))) :
    block_bytes e (N := 15) (Vector.ofFn (fun i : Fin 60 => colRec 8 first fifth (loadWord e key) i.val)) =
      Vector.ofFn fun r : Fin 15 => roundKeyBytes (keyExpansion 8 key) r.val := by
  rw [show keyExpansion 8 key = keyExpansionWith (stdTemp 8) 8 key from
    funext fun i => (keyExpansionWith_std 8 key i).symm]
  refine blocks_ok e (N := 15) key 8 first fifth (stdTemp 8) ?_ ?_ ?_
  · intro i old prev hi h4 hm
    rw [h1 _ _ _ _ (by omega), stdTemp, if_pos hm, show i / 8 - 1 + 1 = i / 8 by omega]
  · intro i old prev h6 h4
    rw [h5, stdTemp, if_neg (by omega), if_pos ⟨h6, h4⟩]
  · intro i w h h'; rw [stdTemp, if_neg h, if_neg h']
end

end Aes.Columns
