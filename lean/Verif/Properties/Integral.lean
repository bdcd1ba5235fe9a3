import Verif.Proofs.Integral
import Verif.Properties.Symmetry
/-!
C68: the integral property of the public rounds. If one byte of a block runs through all its values, then after two rounds every byte
does, after three rounds the XOR of the 256 results is zero; if the four bytes of a diagonal do, the XOR of the results of four rounds is
zero. So three rounds, or four, are easily told from a random permutation, whatever the keys: `chain_enc` with four or five keys is not a
cipher. It also ties the rounds together: it holds of no round whose S-box is not a permutation, say.
-/
namespace Aes
open Rust AesSpec Fips197 AesVec AesBlock Target

/-- The function returns for every block of the list, and the XOR of what it returns is zero. -/
def SumsToZero (op : Bytes 16 → M (Bytes 16)) (l : List (Bytes 16)) : Prop := ∃ ys, l.mapM op = .ok ys ∧ xorAll ys = zeroB 16

namespace Integral
open AesSpec.Integral
open AesSpec.Differential (BoxRound encBox decBox rv32DecBox)

theorem mapM_ok {op : Bytes 16 → M (Bytes 16)} {g : Bytes 16 → Bytes 16} (h : ∀ x, op x = .ok (g x)) (l : List (Bytes 16)) :
    l.mapM op = .ok (l.map g) := by
  induction l with
  | nil => rfl
  | cons a l ih => rw [List.mapM_cons, h, Rust.bind_ok, ih, Rust.bind_ok]; rfl
theorem sums {op : Bytes 16 → M (Bytes 16)} {g : Bytes 16 → Bytes 16} (h : ∀ x, op x = .ok (g x)) {l : List (Bytes 16)}
    (hg : xorAll (l.map g) = zeroB 16) : SumsToZero op l := ⟨_, mapM_ok h l, hg⟩

theorem foldlM_ok {op : Bytes 16 → Bytes 16 → M (Bytes 16)} {f : Bytes 16 → Bytes 16 → Bytes 16} (h : ∀ x k, op x k = .ok (f x k))
    (ks : List (Bytes 16)) (x : Bytes 16) : ks.foldlM op x = .ok (ks.foldl f x) := by
  induction ks generalizing x with
  | nil => rfl
  | cons k ks ih => rw [List.foldlM_cons, h, Rust.bind_ok, ih, List.foldl_cons]

variable {f : Bytes 16 → Bytes 16 → Bytes 16} {R : BoxRound f}

theorem rounds_three (h : Spreads R) {ks : List (Bytes 16)} (hk : ks.length = 3) {l : List (Bytes 16)} (hn : l.Nodup) {i : Fin 16}
    (hl : VariesIn (· = i) l) : xorAll (l.map fun x => ks.foldl f x) = zeroB 16 := by
  match ks, hk with
  | [a, b, c], _ => exact three_set h a b c hn hl
theorem rounds_four (h : Spreads R) {ks : List (Bytes 16)} (hk : ks.length = 4) {l : List (Bytes 16)} (hn : l.Nodup) {P : Fin 16 → Prop}
    {c1 : Fin 4} (hP : ∀ j : Fin 16, R.back ⟨j.val % 4, by omega⟩ ⟨j.val / 4, by omega⟩ = c1 → P j) (hl : VariesIn P l) :
    xorAll (l.map fun x => ks.foldl f x) = zeroB 16 := by
  match ks, hk with
  | [a, b, c, d], _ => exact four_set h a b c d hn hP hl

theorem xor_inj (k : Bytes 16) : Function.Injective (xorB · k) := fun a b h => by
  have : xorB (xorB a k) k = xorB (xorB b k) k := congrArg (xorB · k) h
  rwa [xorB_cancel, xorB_cancel] at this
/-- Adding a key to all blocks leaves free bytes free. -/
theorem varies_xor (k : Bytes 16) {P : Fin 16 → Prop} {l : List (Bytes 16)} (h : VariesIn P l) : VariesIn P (l.map (xorB · k)) := by
  intro x' hx' y hy
  obtain ⟨x, hx, rfl⟩ := List.mem_map.1 hx'
  have e : xorB (xorB y k) k = y := xorB_cancel y k
  refine List.mem_map.2 ⟨xorB y k, h x hx _ fun j hj => ?_, e⟩
  have := hy j hj
  show (xorB y k)[j.val] = _
  rw [getElem_xorB]
  have hj' : y[j.val] = (xorB x k)[j.val] := this
  rw [hj', getElem_xorB, BitVec.xor_assoc, BitVec.xor_self, BitVec.xor_zero]
  rfl

/-- The key that a chain adds first. -/
theorem pre_key {g : Bytes 16 → Bytes 16} {P : Fin 16 → Prop} (hg : ∀ l : List (Bytes 16), l.Nodup → VariesIn P l → xorAll (l.map g) = zeroB 16)
    (k : Bytes 16) (l : List (Bytes 16)) (hn : l.Nodup) (hl : VariesIn P l) : xorAll (l.map fun x => g (xorB x k)) = zeroB 16 := by
  have := hg (l.map (xorB · k)) (hn.map (xor_inj k)) (varies_xor k hl)
  rwa [List.map_map] at this
/-- A key that is added last can be added to the round key before. -/
theorem post_key (R : BoxRound f) (ks : List (Bytes 16)) (k k' x : Bytes 16) :
    xorB ((ks ++ [k]).foldl f x) k' = (ks ++ [xorB k k']).foldl f x := by
  rw [List.foldl_append, List.foldl_append]
  apply AesSpec.Differential.ofBytes_inj
  simp only [List.foldl_cons, List.foldl_nil]
  rw [ofBytes_xorB, round_state R, round_state R, ofBytes_xorB]
  funext r c
  simp only [State.add, BitVec.xor_assoc]

theorem state_byte (y : Bytes 16) (j : Fin 16) : State.ofBytes y ⟨j.val % 4, by omega⟩ ⟨j.val / 4, by omega⟩ = y[j] := by
  have e : j.val % 4 + 4 * (j.val / 4) = j.val := by omega
  simp only [State.ofBytes, e]
  rfl

theorem two {op : Bytes 16 → Bytes 16 → M (Bytes 16)} (hop : ∀ x k, op x k = .ok (f x k)) (h : Spreads R) (x k l : Bytes 16) (i j : Fin 16)
    (u : U8) : ∃ v, (∃ y, [k, l].foldlM op (x.set i v) = .ok y ∧ y[j] = u) ∧
      ∀ v', (∃ y, [k, l].foldlM op (x.set i v') = .ok y ∧ y[j] = u) → v' = v := by
  have hi := two_inj h x k l i ⟨j.val % 4, by omega⟩ ⟨j.val / 4, by omega⟩
  simp only [state_byte] at hi
  obtain ⟨v, hv⟩ := Finite.surjective_of_injective hi u
  refine ⟨v, ⟨_, foldlM_ok hop _ _, hv⟩, fun v' ⟨y, hy, hu⟩ => hi ?_⟩
  rw [foldlM_ok hop] at hy
  cases hy
  exact hu.trans hv.symm

/-- A chain on RISC-V-32: rounds, then a key. -/
theorem rv_chain {n : Nat} {P : Fin 16 → Prop} (R : BoxRound f)
    (hg : ∀ ks : List (Bytes 16), ks.length = n + 1 → ∀ l : List (Bytes 16), l.Nodup → VariesIn P l → xorAll (l.map fun x => ks.foldl f x) = zeroB 16)
    {keys : List (Bytes 16)} (hk : keys.length = n + 2) (hne : keys ≠ []) (l : List (Bytes 16)) (hn : l.Nodup) (hl : VariesIn P l) :
    xorAll (l.map fun x => xorB (keys.dropLast.foldl f x) (keys.getLast hne)) = zeroB 16 := by
  have hd : keys.dropLast ≠ [] := fun e => by
    have := congrArg List.length e
    rw [List.length_dropLast, hk] at this
    simp at this
  have e : ∀ x, xorB (keys.dropLast.foldl f x) (keys.getLast hne) =
      (keys.dropLast.dropLast ++ [xorB (keys.dropLast.getLast hd) (keys.getLast hne)]).foldl f x := fun x => by
    rw [← post_key R, List.dropLast_append_getLast hd]
  simp only [e]
  exact hg _ (by simp [hk]) l hn hl

/-- What `chain_enc` and `chain_dec` do to the bytes. -/
theorem chainEnc_bytes (t : Target) (hrv : t ≠ .riscv32) (x k : Bytes 16) (ks : List (Bytes 16)) :
    chainEncBytes t x (k :: ks) = .ok (ks.foldl encRound (xorB x k)) :=
  Symmetry.chain_bytes x _ _ ((show chain_enc _ _ = orPanic (chainDoc bitxor enc _ _) from C16_chain_enc t hrv .x1 _ _).symm ▸
    Symmetry.chain_doc _ _ LawfulEnc.view_enc x k ks)
theorem chainDec_bytes (t : Target) (hrv : t ≠ .riscv32) (x k : Bytes 16) (ks : List (Bytes 16)) :
    chainDecBytes t x (k :: ks) = .ok (ks.foldl decRound (xorB x k)) := by
  have := t.lawfulDec hrv
  exact Symmetry.chain_bytes x _ _ ((show chain_dec _ _ = orPanic (chainDoc bitxor dec _ _) from C17_chain_dec t hrv .x1 _ _).symm ▸
    Symmetry.chain_doc _ _ LawfulDec.view_dec x k ks)
theorem chainEnc_rv (x k : Bytes 16) (ks : List (Bytes 16)) : chainEncBytes .riscv32 x (k :: ks) =
    .ok (xorB ((k :: ks).dropLast.foldl encRound x) ((k :: ks).getLast (by simp))) :=
  Symmetry.chain_bytes x _ _ ⟨_, Riscv32.chain_enc_rv _ _ _, Symmetry.chain_rv _ _ LawfulEnc.view_enc x k ks (by simp)⟩
theorem chainDec_rv (x k : Bytes 16) (ks : List (Bytes 16)) : chainDecBytes .riscv32 x (k :: ks) =
    .ok (xorB ((k :: ks).dropLast.foldl rv32DecRound x) ((k :: ks).getLast (by simp))) :=
  Symmetry.chain_bytes x _ _ ⟨_, Riscv32.chain_dec_rv _ _ _, Symmetry.chain_rv _ _ Riscv32.view_dec x k ks (by simp)⟩

theorem diag_enc {c : Nat} (hc : c < 4) (j : Fin 16) :
    (⟨j.val / 4, by omega⟩ : Fin 4) - (⟨j.val % 4, by omega⟩ : Fin 4) = ⟨c, hc⟩ → diagonal c j := by
  intro h
  have := congrArg Fin.val h
  simp only [Fin.sub_def] at this
  unfold diagonal columnOf rowOf
  omega
theorem diag_dec {c : Nat} (hc : c < 4) (j : Fin 16) :
    (⟨j.val / 4, by omega⟩ : Fin 4) + (⟨j.val % 4, by omega⟩ : Fin 4) = ⟨c, hc⟩ → antidiagonal c j := by
  intro h
  have := congrArg Fin.val h
  simp only [Fin.add_def] at this
  unfold antidiagonal columnOf rowOf
  omega

end Integral
open Integral AesSpec.Integral
open AesSpec.Differential (encBox rv32DecBox)

/-- C68: two rounds of `enc`, on every target and with any keys: while byte `i` of the block runs through all values, so does byte `j`
of the result, for every `j`: it takes every value exactly once. -/
theorem C68_enc_two_rounds (t : Target) (x k l : Bytes 16) (i j : Fin 16) (u : U8) :
    ∃ v, (∃ y, [k, l].foldlM (encBytes t) (x.set i v) = .ok y ∧ y[j] = u) ∧
      ∀ v', (∃ y, [k, l].foldlM (encBytes t) (x.set i v') = .ok y ∧ y[j] = u) → v' = v := two (C12_enc t) encSpreads x k l i j u
/-- C68: the same for `dec`. -/
theorem C68_dec_two_rounds (t : Target) (x k l : Bytes 16) (i j : Fin 16) (u : U8) :
    ∃ v, (∃ y, [k, l].foldlM (decBytes t) (x.set i v) = .ok y ∧ y[j] = u) ∧
      ∀ v', (∃ y, [k, l].foldlM (decBytes t) (x.set i v') = .ok y ∧ y[j] = u) → v' = v := by
  by_cases hrv : t = .riscv32
  · subst hrv; exact two C41_dec rv32DecSpreads x k l i j u
  · exact two (C13_dec t hrv) decSpreads x k l i j u

/-- C68: three rounds of `enc`, on every target and with any keys: if byte `i` is free in a set of blocks, the XOR of what they
become is zero. -/
theorem C68_enc_three_rounds (t : Target) (keys : List (Bytes 16)) (hk : keys.length = 3) (l : List (Bytes 16)) (hn : l.Nodup) (i : Fin 16)
    (hl : VariesIn (· = i) l) : SumsToZero (fun x => keys.foldlM (encBytes t) x) l :=
  sums (foldlM_ok (C12_enc t) keys) (rounds_three encSpreads hk hn hl)
/-- C68: the same for `dec`. -/
theorem C68_dec_three_rounds (t : Target) (keys : List (Bytes 16)) (hk : keys.length = 3) (l : List (Bytes 16)) (hn : l.Nodup) (i : Fin 16)
    (hl : VariesIn (· = i) l) : SumsToZero (fun x => keys.foldlM (decBytes t) x) l := by
  by_cases hrv : t = .riscv32
  · subst hrv; exact sums (foldlM_ok C41_dec keys) (rounds_three rv32DecSpreads hk hn hl)
  · exact sums (foldlM_ok (C13_dec t hrv) keys) (rounds_three decSpreads hk hn hl)

/-- C68: four rounds of `enc`: if the four bytes that ShiftRows moves to one column are free. -/
theorem C68_enc_four_rounds (t : Target) (keys : List (Bytes 16)) (hk : keys.length = 4) (l : List (Bytes 16)) (hn : l.Nodup) (c : Nat) (hc : c < 4)
    (hl : VariesIn (diagonal c) l) : SumsToZero (fun x => keys.foldlM (encBytes t) x) l :=
  sums (foldlM_ok (C12_enc t) keys) (rounds_four encSpreads hk hn (c1 := ⟨c, hc⟩) (fun j => diag_enc hc j) hl)
/-- C68: four rounds of `dec`: if the four bytes that InvShiftRows moves to one column are free. -/
theorem C68_dec_four_rounds (t : Target) (hrv : t ≠ .riscv32) (keys : List (Bytes 16)) (hk : keys.length = 4) (l : List (Bytes 16)) (hn : l.Nodup)
    (c : Nat) (hc : c < 4) (hl : VariesIn (antidiagonal c) l) : SumsToZero (fun x => keys.foldlM (decBytes t) x) l :=
  sums (foldlM_ok (C13_dec t hrv) keys) (rounds_four decSpreads hk hn (c1 := ⟨c, hc⟩) (fun j => diag_dec hc j) hl)
/-- C68: on RISC-V-32 the rows are shifted the other way in `dec` (C41), so they are the same four bytes as for `enc`. -/
theorem C68_dec_four_rounds_riscv32 (keys : List (Bytes 16)) (hk : keys.length = 4) (l : List (Bytes 16)) (hn : l.Nodup)
    (c : Nat) (hc : c < 4) (hl : VariesIn (diagonal c) l) : SumsToZero (fun x => keys.foldlM (decBytes .riscv32) x) l :=
  sums (foldlM_ok C41_dec keys) (rounds_four rv32DecSpreads hk hn (c1 := ⟨c, hc⟩) (fun j => diag_enc hc j) hl)

/-- C68: `chain_enc` with four keys is not a cipher: on every target, if one byte is free in a set of blocks, the XOR of what they become is
zero; neither is `chain_enc` with five keys, if a diagonal is free. -/
theorem C68_chain_enc (t : Target) (keys : List (Bytes 16)) (l : List (Bytes 16)) (hn : l.Nodup) :
    (keys.length = 4 → ∀ i, VariesIn (· = i) l → SumsToZero (chainEncBytes t · keys) l) ∧
    (keys.length = 5 → ∀ c, c < 4 → VariesIn (diagonal c) l → SumsToZero (chainEncBytes t · keys) l) := by
  cases keys with
  | nil => exact ⟨fun h => by simp at h, fun h => by simp at h⟩
  | cons k ks =>
    by_cases hrv : t = .riscv32
    · subst hrv
      exact ⟨fun hk i hl => sums (fun x => chainEnc_rv x k ks)
          (rv_chain encBox (n := 2) (fun ks hk l hn hl => rounds_three encSpreads hk hn hl) hk (by simp) l hn hl),
        fun hk c hc hl => sums (fun x => chainEnc_rv x k ks)
          (rv_chain encBox (n := 3) (fun ks hk l hn hl => rounds_four encSpreads hk hn (c1 := ⟨c, hc⟩) (fun j => diag_enc hc j) hl) hk (by simp) l hn hl)⟩
    · exact ⟨fun hk i hl => sums (fun x => chainEnc_bytes t hrv x k ks)
          (pre_key (g := fun x => ks.foldl encRound x) (fun l hn hl => rounds_three encSpreads (by simpa using hk) hn hl) k l hn hl),
        fun hk c hc hl => sums (fun x => chainEnc_bytes t hrv x k ks)
          (pre_key (g := fun x => ks.foldl encRound x) (fun l hn hl => rounds_four encSpreads (by simpa using hk) hn (c1 := ⟨c, hc⟩)
            (fun j => diag_enc hc j) hl) k l hn hl)⟩
/-- C68: neither is `chain_dec`. -/
theorem C68_chain_dec (t : Target) (hrv : t ≠ .riscv32) (keys : List (Bytes 16)) (l : List (Bytes 16)) (hn : l.Nodup) :
    (keys.length = 4 → ∀ i, VariesIn (· = i) l → SumsToZero (chainDecBytes t · keys) l) ∧
    (keys.length = 5 → ∀ c, c < 4 → VariesIn (antidiagonal c) l → SumsToZero (chainDecBytes t · keys) l) := by
  cases keys with
  | nil => exact ⟨fun h => by simp at h, fun h => by simp at h⟩
  | cons k ks =>
    exact ⟨fun hk i hl => sums (fun x => chainDec_bytes t hrv x k ks)
        (pre_key (g := fun x => ks.foldl decRound x) (fun l hn hl => rounds_three decSpreads (by simpa using hk) hn hl) k l hn hl),
      fun hk c hc hl => sums (fun x => chainDec_bytes t hrv x k ks)
        (pre_key (g := fun x => ks.foldl decRound x) (fun l hn hl => rounds_four decSpreads (by simpa using hk) hn (c1 := ⟨c, hc⟩)
          (fun j => diag_dec hc j) hl) k l hn hl)⟩
/-- C68: nor on RISC-V-32. -/
theorem C68_chain_dec_riscv32 (keys : List (Bytes 16)) (l : List (Bytes 16)) (hn : l.Nodup) :
    (keys.length = 4 → ∀ i, VariesIn (· = i) l → SumsToZero (chainDecBytes .riscv32 · keys) l) ∧
    (keys.length = 5 → ∀ c, c < 4 → VariesIn (diagonal c) l → SumsToZero (chainDecBytes .riscv32 · keys) l) := by
  cases keys with
  | nil => exact ⟨fun h => by simp at h, fun h => by simp at h⟩
  | cons k ks =>
    exact ⟨fun hk i hl => sums (fun x => chainDec_rv x k ks)
        (rv_chain rv32DecBox (n := 2) (fun ks hk l hn hl => rounds_three rv32DecSpreads hk hn hl) hk (by simp) l hn hl),
      fun hk c hc hl => sums (fun x => chainDec_rv x k ks)
        (rv_chain rv32DecBox (n := 3) (fun ks hk l hn hl => rounds_four rv32DecSpreads hk hn (c1 := ⟨c, hc⟩) (fun j => diag_enc hc j) hl) hk
          (by simp) l hn hl)⟩

/-! ### The hypotheses are met -/

/-- By the 256 blocks that agree with a given one except in byte `i`: they are different, and byte `i` is free. -/
example (x : Bytes 16) (i : Fin 16) : (varyByte x i).Nodup ∧ VariesIn (· = i) (varyByte x i) ∧ (varyByte x i).length = 256 := by
  refine ⟨nodup_varyByte x i, fun y hy z hz => mem_varyByte.2 fun j hj => ?_, by simp [varyByte, byteValues]⟩
  rw [hz j hj, mem_varyByte.1 hy j hj]
/-- So these 256 results cancel, with any keys. -/
example (t : Target) (x a b c d : Bytes 16) : SumsToZero (chainEncBytes t · [a, b, c, d]) (varyByte x 5) :=
  (C68_chain_enc t [a, b, c, d] _ (nodup_varyByte x 5)).1 rfl 5 fun y hy z hz => mem_varyByte.2 fun j hj => by
    rw [hz j hj, mem_varyByte.1 hy j hj]
/-- There are sets in which a diagonal is free (all blocks that agree with `x` elsewhere). -/
example (x : Bytes 16) : ∃ l : List (Bytes 16), l.Nodup ∧ VariesIn (diagonal 2) l ∧ x ∈ l ∧ ¬ VariesIn (· = 0) l := by
  classical
  refine ⟨(Finset.univ.filter fun y : Bytes 16 => ∀ j : Fin 16, ¬ diagonal 2 j → y[j] = x[j]).toList, Finset.nodup_toList _, fun y hy z hz => ?_,
    by simp, fun h => ?_⟩
  · simp only [Finset.mem_toList, Finset.mem_filter, Finset.mem_univ, true_and] at hy ⊢
    exact fun j hj => (hz j hj).trans (hy j hj)
  · have := h x (by simp) (x.set 0 (x[0] ^^^ 1#8)) fun j hj => by
      show (x.set 0 _)[j.val] = _
      rw [Vector.getElem_set, if_neg (fun e => hj (Fin.ext e.symm))]; rfl
    simp only [Finset.mem_toList, Finset.mem_filter, Finset.mem_univ, true_and] at this
    have h0 := this 0 (by unfold diagonal columnOf rowOf; decide)
    have h1 : x[0] ^^^ 1#8 = x[0] := by simpa using h0
    revert h1
    generalize x[0] = b
    revert b
    decide
end Aes
