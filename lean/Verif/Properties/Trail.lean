import Verif.Properties.Diffusion
import Verif.Properties.Riscv32
import Verif.Proofs.Trail
/-!
C56: any two different blocks, taken through rounds with the same keys, differ in at least 25 bytes over every four consecutive
rounds ("active S-boxes"): the bound the usual differential security argument for AES starts from. It holds for `enc` and for
`dec`, on every target.
-/
namespace Aes
open Rust AesSpec Fips197 AesVec AesBlock Target

/-- The blocks that enter each of the rounds `op · k₁, op · k₂, ..`, starting from `x`. -/
def roundInputs (op : Bytes 16 → Bytes 16 → M (Bytes 16)) (x : Bytes 16) : List (Bytes 16) → M (List (Bytes 16))
  | [] => pure []
  | k :: ks => do
    let y ← op x k
    let rest ← roundInputs op y ks
    pure (x :: rest)

/-- The number of differing bytes, summed over two lists of blocks. -/
def totalDistance (xs ys : List (Bytes 16)) : Nat := (List.zipWith distance xs ys).sum

namespace Trail
open Diffusion

/-- Where two blocks differ. -/
def pat (a b : Bytes 16) : Pat := fun r c => decide (State.ofBytes a r c ≠ State.ofBytes b r c)

theorem act_true {A : Pat} {c : Fin 4} : act A c = true ↔ ∃ r, A r c = true := by
  simp [act, ex4, or_assoc]
theorem nz_toNat (x y : Byte) : nz (x ^^^ y) = (decide (x ≠ y)).toNat := by
  unfold nz
  by_cases h : x = y
  · subst h; simp
  · have h0 : ¬ x ^^^ y = (0 : Byte) := fun hx => h (BitVec.xor_eq_zero_iff.mp hx)
    rw [if_neg h0, decide_eq_true h]; rfl
theorem distance_total (a b : Bytes 16) : distance a b = total (pat a b) := by
  rw [distance_eq]
  simp only [State.add, nz_toNat, total, wt, pat]
theorem exists_act {a b : Bytes 16} (h : a ≠ b) : ∃ c, act (pat a b) c = true := by
  apply Classical.byContradiction
  intro hn
  apply h
  rw [← toBytes_ofBytes a, ← toBytes_ofBytes b]
  refine congrArg _ (funext fun r => funext fun c => ?_)
  apply Classical.byContradiction
  intro hne
  exact hn ⟨c, act_true.2 ⟨r, by simpa [pat] using hne⟩⟩

/-- A column and its image under MIXCOLUMNS, as patterns. -/
theorem mix_column (s s' : State) (c : Fin 4) :
    ((∃ r, mixColumns s r c ≠ mixColumns s' r c) ↔ ∃ r, s r c ≠ s' r c) ∧
    ((∃ r, s r c ≠ s' r c) → 5 ≤ wt (fun r => decide (s r c ≠ s' r c)) + wt (fun r => decide (mixColumns s r c ≠ mixColumns s' r c))) := by
  constructor
  · constructor
    · rintro ⟨r, hr⟩
      apply Classical.byContradiction
      intro hn
      refine hr ?_
      rw [mixColumns_lin]
      exact lin_none cfM (fun r => Classical.byContradiction fun h => hn ⟨r, h⟩) r
    · rintro ⟨r, hr⟩
      apply Classical.byContradiction
      intro hn
      refine hr ?_
      have := lin_none cfI (s := mixColumns s) (s' := mixColumns s') (c := c) (fun r => Classical.byContradiction fun h => hn ⟨r, h⟩) r
      rwa [← invMixColumns_lin, invMixColumns_mixColumns, invMixColumns_mixColumns] at this
  · rintro ⟨r, hr⟩
    have hb := column_branch (s.add s') c ⟨r, fun h => hr (BitVec.xor_eq_zero_iff.mp h)⟩
    rw [mixColumns_add] at hb
    simpa only [State.add, nz_toNat, wt] using hb
/-- The same for INVMIXCOLUMNS. -/
theorem invMix_column (s s' : State) (c : Fin 4) :
    ((∃ r, invMixColumns s r c ≠ invMixColumns s' r c) ↔ ∃ r, s r c ≠ s' r c) ∧
    ((∃ r, s r c ≠ s' r c) → 5 ≤ wt (fun r => decide (s r c ≠ s' r c)) + wt (fun r => decide (invMixColumns s r c ≠ invMixColumns s' r c))) := by
  have h := mix_column (invMixColumns s) (invMixColumns s') c
  rw [mixColumns_invMixColumns, mixColumns_invMixColumns] at h
  exact ⟨h.1.symm, fun hd => by have := h.2 (h.1.1 hd); omega⟩

/-- A round made of a row shift and a byte permutation (in either order), a column mix with branch number five, and the key. -/
theorem round_of {sh : Fin 4 → Fin 4 → Fin 4} (mix : State → State) (pre : State → State) (box : Byte → Byte)
    (hbox : ∀ a b, box a = box b ↔ a = b) (hpre : ∀ s r c, pre s r c = box (s r (sh r c)))
    (hmix : ∀ s s' c, ((∃ r, mix s r c ≠ mix s' r c) ↔ ∃ r, s r c ≠ s' r c) ∧
      ((∃ r, s r c ≠ s' r c) → 5 ≤ wt (fun r => decide (s r c ≠ s' r c)) + wt (fun r => decide (mix s r c ≠ mix s' r c))))
    (f : Bytes 16 → Bytes 16 → Bytes 16) (hf : ∀ s k, f s k = State.toBytes (addRoundKey (keyWords k) (mix (pre (State.ofBytes s)))))
    (a b k : Bytes 16) : Round sh (pat a b) (pat (f a k) (f b k)) := by
  have hp : moved sh (pat a b) = fun r c => decide (pre (State.ofBytes a) r c ≠ pre (State.ofBytes b) r c) := by
    funext r c
    simp only [moved, pat, hpre, ne_eq, hbox]
  have hq : pat (f a k) (f b k) = fun r c => decide (mix (pre (State.ofBytes a)) r c ≠ mix (pre (State.ofBytes b)) r c) := by
    funext r c
    simp only [pat, hf, ofBytes_toBytes, addKey_ne]
  rw [Round, hp, hq]
  intro c
  obtain ⟨h1, h2⟩ := hmix (pre (State.ofBytes a)) (pre (State.ofBytes b)) c
  constructor
  · rw [Bool.eq_iff_iff, act_true, act_true]
    simpa only [decide_eq_true_eq] using h1
  · intro h
    rw [act_true] at h
    simp only [decide_eq_true_eq] at h
    exact h2 (h1.1 h)

theorem encRound_round (a b k : Bytes 16) : Round shR (pat a b) (pat (encRound a k) (encRound b k)) :=
  round_of mixColumns (fun s => shiftRows (subBytes s)) sbox (fun _ _ => sbox_inj) (fun _ _ _ => rfl) mix_column encRound (fun _ _ => rfl) a b k
theorem decRound_round (a b k : Bytes 16) : Round shL (pat a b) (pat (decRound a k) (decRound b k)) :=
  round_of invMixColumns (fun s => invSubBytes (invShiftRows s)) invSbox (fun _ _ => invSbox_inj) (fun _ _ _ => rfl) invMix_column decRound
    (fun _ _ => rfl) a b k
theorem rv32DecRound_round (a b k : Bytes 16) : Round shR (pat a b) (pat (rv32DecRound a k) (rv32DecRound b k)) :=
  round_of invMixColumns (fun s => invSubBytes (shiftRows s)) invSbox (fun _ _ => invSbox_inj) (fun _ _ _ => rfl) invMix_column rv32DecRound
    (fun _ _ => rfl) a b k

/-- The inputs of the rounds `f`, on plain bytes. -/
def inputs (f : Bytes 16 → Bytes 16 → Bytes 16) (x : Bytes 16) : List (Bytes 16) → List (Bytes 16)
  | [] => []
  | k :: ks => x :: inputs f (f x k) ks
theorem roundInputs_ok {op : Bytes 16 → Bytes 16 → M (Bytes 16)} {f : Bytes 16 → Bytes 16 → Bytes 16} (h : ∀ x k, op x k = .ok (f x k))
    (x : Bytes 16) (ks : List (Bytes 16)) : roundInputs op x ks = .ok (inputs f x ks) := by
  induction ks generalizing x with
  | nil => rfl
  | cons k ks ih => simp only [roundInputs, h, bind_ok, ih, pure_ok, inputs]

theorem act_pat_ne {a b : Bytes 16} {c : Fin 4} (h : act (pat a b) c = true) : a ≠ b := by
  rintro rfl
  obtain ⟨r, hr⟩ := act_true.1 h
  simp [pat] at hr
/-- A round keeps different blocks different. -/
theorem round_ne {sh : Fin 4 → Fin 4 → Fin 4} (hs : Shift sh) {f : Bytes 16 → Bytes 16 → Bytes 16}
    (hf : ∀ a b k, Round sh (pat a b) (pat (f a k) (f b k))) {a b : Bytes 16} (h : a ≠ b) (k : Bytes 16) : f a k ≠ f b k := by
  obtain ⟨c, hc⟩ := exists_act h
  have h1 := hs.gather (pat a b) c
  have h2 : 0 < wt (pat a b · c) := by
    obtain ⟨r, hr⟩ := act_true.1 hc
    simp only [wt]
    match r with
    | 0 => rw [hr]; simp; omega
    | 1 => rw [hr]; simp; omega
    | 2 => rw [hr]; simp; omega
    | 3 => rw [hr]; simp
  have h3 : ∃ c, act (moved sh (pat a b)) c = true := by
    apply Classical.byContradiction
    intro hn
    have : cols (moved sh (pat a b)) = 0 := by
      have z (c : Fin 4) : act (moved sh (pat a b)) c = false := by
        cases e : act (moved sh (pat a b)) c with
        | false => rfl
        | true => exact absurd ⟨c, e⟩ hn
      simp only [cols, wt, z]; rfl
    omega
  obtain ⟨c', hc'⟩ := h3
  rw [← (hf a b k c').1] at hc'
  exact act_pat_ne hc'

theorem bound {sh : Fin 4 → Fin 4 → Fin 4} (hs : Shift sh) {f : Bytes 16 → Bytes 16 → Bytes 16}
    (hf : ∀ a b k, Round sh (pat a b) (pat (f a k) (f b k))) : ∀ (ks : List (Bytes 16)) (a b : Bytes 16), a ≠ b →
      25 * (ks.length / 4) ≤ totalDistance (inputs f a ks) (inputs f b ks)
  | k0 :: k1 :: k2 :: k3 :: ks, a, b, h => by
    have n1 := round_ne hs hf h k0
    have n2 := round_ne hs hf n1 k1
    have n3 := round_ne hs hf n2 k2
    have n4 := round_ne hs hf n3 k3
    have ih := bound hs hf ks _ _ n4
    have h4 := four hs (hf a b k0) (hf _ _ k1) (hf _ _ k2) (exists_act n2)
    have e : (k0 :: k1 :: k2 :: k3 :: ks).length / 4 = ks.length / 4 + 1 := by simp only [List.length_cons]; omega
    rw [e]
    simp only [totalDistance, inputs, List.zipWith_cons_cons, List.sum_cons, distance_total] at ih ⊢
    omega
  | [], _, _, _ | [_], _, _, _ | [_, _], _, _, _ | [_, _, _], _, _, _ => by simp

/-- Every window of four. -/
theorem window {sh : Fin 4 → Fin 4 → Fin 4} (hs : Shift sh) {f : Bytes 16 → Bytes 16 → Bytes 16}
    (hf : ∀ a b k, Round sh (pat a b) (pat (f a k) (f b k))) (ks : List (Bytes 16)) (a b : Bytes 16) (h : a ≠ b) (i : Nat)
    (hi : i + 4 ≤ ks.length) :
    25 ≤ totalDistance (((inputs f a ks).drop i).take 4) (((inputs f b ks).drop i).take 4) := by
  induction i generalizing ks a b with
  | zero =>
    match ks with
    | k0 :: k1 :: k2 :: k3 :: ks =>
      have := bound hs hf [k0, k1, k2, k3] a b h
      simpa [inputs] using this
    | [] | [_] | [_, _] | [_, _, _] => simp only [List.length_cons, List.length_nil] at hi; omega
  | succ i ih =>
    match ks with
    | k :: ks => exact ih ks _ _ (round_ne hs hf h k) (by simp only [List.length_cons] at hi; omega)
    | [] => simp only [List.length_nil] at hi; omega

end Trail

/-- What C56 says of a round `op`: from different blocks, with the same keys, any number of rounds succeed, and the blocks that
enter them differ in at least 25 bytes in every window of four consecutive rounds, hence in `25 * (n / 4)` over `n` rounds. -/
def WideTrail (op : Bytes 16 → Bytes 16 → M (Bytes 16)) : Prop :=
  ∀ (a b : Bytes 16), a ≠ b → ∀ ks : List (Bytes 16), ∃ as bs,
    roundInputs op a ks = .ok as ∧ roundInputs op b ks = .ok bs ∧ as.length = ks.length ∧ bs.length = ks.length ∧
    (∀ i, i + 4 ≤ ks.length → 25 ≤ totalDistance ((as.drop i).take 4) ((bs.drop i).take 4)) ∧
    25 * (ks.length / 4) ≤ totalDistance as bs

namespace Trail
theorem length_inputs (f : Bytes 16 → Bytes 16 → Bytes 16) (x : Bytes 16) (ks : List (Bytes 16)) : (inputs f x ks).length = ks.length := by
  induction ks generalizing x with
  | nil => rfl
  | cons k ks ih => simp only [inputs, List.length_cons, ih]
theorem wide {sh : Fin 4 → Fin 4 → Fin 4} (hs : Shift sh) {f : Bytes 16 → Bytes 16 → Bytes 16}
    (hf : ∀ a b k, Round sh (pat a b) (pat (f a k) (f b k))) {op : Bytes 16 → Bytes 16 → M (Bytes 16)} (h : ∀ x k, op x k = .ok (f x k)) :
    WideTrail op := fun a b hab ks =>
  ⟨_, _, roundInputs_ok h a ks, roundInputs_ok h b ks, length_inputs _ _ _, length_inputs _ _ _, fun i hi => window hs hf ks a b hab i hi,
    bound hs hf ks a b hab⟩
end Trail

/-- C56 for `enc`, on every target. -/
theorem C56_enc (t : Target) : WideTrail (encBytes t) := Trail.wide Trail.shR_shift Trail.encRound_round (C12_enc t)
/-- C56 for `dec`, on every target (on RISC-V-32, whose `dec` shifts rows the wrong way, the bound survives). -/
theorem C56_dec (t : Target) : WideTrail (decBytes t) := by
  by_cases hrv : t = .riscv32
  · subst hrv; exact Trail.wide Trail.shR_shift Trail.rv32DecRound_round C41_dec
  · exact Trail.wide Trail.shL_shift Trail.decRound_round (C13_dec t hrv)

/-- The bound is reached: with these keys, two blocks that differ in one byte differ in 1, 4, 16 and 4 bytes. -/
example (t : Target) : ∃ as bs, roundInputs (encBytes t) (zeroB 16) [zeroB 16,
      #v[0xec, 0xcd, 0xa5, 0xb1, 0xbb, 0xa7, 0xea, 0x90, 0x9e, 0x39, 0xdc, 0xfc, 0x2e, 0x9a, 0x84, 0xf9], zeroB 16, zeroB 16] = .ok as ∧
    roundInputs (encBytes t) ((zeroB 16).set 0 1) [zeroB 16,
      #v[0xec, 0xcd, 0xa5, 0xb1, 0xbb, 0xa7, 0xea, 0x90, 0x9e, 0x39, 0xdc, 0xfc, 0x2e, 0x9a, 0x84, 0xf9], zeroB 16, zeroB 16] = .ok bs ∧
    List.zipWith distance as bs = [1, 4, 16, 4] := by
  refine ⟨_, _, Trail.roundInputs_ok (C12_enc t) _ _, Trail.roundInputs_ok (C12_enc t) _ _, ?_⟩
  decide +kernel

end Aes
