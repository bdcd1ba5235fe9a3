import Verif.Properties.Trail
import Verif.Proofs.Differential
/-!
C59: the differential bound. Fix the differences two blocks are to have before the first round and after each round. Of all
starting pairs and round keys, at most a fraction `2^(-6 w)` goes that way, where `w` is the number of nonzero difference bytes
that enter the rounds. With C56, a way of `n` rounds that starts with a nonzero difference has fraction at most
`2^(-150 (n/4))`, so `2^(-300)` for eight rounds. It holds for `enc` and for `dec`, on every target.
-/
namespace Aes
open Rust AesSpec Fips197 AesVec AesBlock Target

/-- The blocks a run of the rounds `op · k₁, op · k₂, ..` goes through, from `x` to the result. -/
def trajectory (op : Bytes 16 → Bytes 16 → M (Bytes 16)) (x : Bytes 16) : List (Bytes 16) → M (List (Bytes 16))
  | [] => pure [x]
  | k :: ks => do
    let y ← op x k
    let rest ← trajectory op y ks
    pure (x :: rest)

/-- The blocks `x` and `y`, taken through rounds with the same keys `ks`, differ by exactly `ds`: by the first of `ds` before
the first round, and by the next one after each round. -/
def Follows (op : Bytes 16 → Bytes 16 → M (Bytes 16)) (ds : List (Bytes 16)) : Bytes 16 × Bytes 16 × List (Bytes 16) → Prop
  | (x, y, ks) => ∃ as bs, trajectory op x ks = .ok as ∧ trajectory op y ks = .ok bs ∧ List.zipWith xorB as bs = ds

/-- What C59 says of a round `op`. Of the `2^(128 (n+1))` choices of a starting block and `n` keys (the second block is then the
first one plus the first of the `n + 1` differences), at most `2^(128 (n+1) - 6 w)` follow `ds`, `w` being the weight of all
the differences that enter a round; and at most `2^(128 (n+1) - 150 (n/4))` if the first difference is not zero. -/
def DifferentialBound (op : Bytes 16 → Bytes 16 → M (Bytes 16)) : Prop :=
  ∀ ds : List (Bytes 16),
    AtMost (Follows op ds) (2 ^ (128 * ds.length - 6 * (ds.dropLast.map weight).sum)) ∧
    (∀ d, ds.head? = some d → d ≠ zeroB 16 → AtMost (Follows op ds) (2 ^ (128 * ds.length - 150 * ((ds.length - 1) / 4))))

namespace Differential
open AesSpec.Differential

theorem trajectory_ok {op : Bytes 16 → Bytes 16 → M (Bytes 16)} {f : Bytes 16 → Bytes 16 → Bytes 16} (h : ∀ x k, op x k = .ok (f x k))
    (x : Bytes 16) (ks : List (Bytes 16)) : trajectory op x ks = .ok (states f x ks) := by
  induction ks generalizing x with
  | nil => rfl
  | cons k ks ih => simp only [trajectory, h, bind_ok, ih, pure_ok, states]

theorem follows_along {op : Bytes 16 → Bytes 16 → M (Bytes 16)} {f : Bytes 16 → Bytes 16 → Bytes 16} (h : ∀ x k, op x k = .ok (f x k))
    {ds : List (Bytes 16)} {p : Bytes 16 × Bytes 16 × List (Bytes 16)} (hp : Follows op ds p) : Along f ds p := by
  obtain ⟨x, y, ks⟩ := p
  obtain ⟨as, bs, h1, h2, h3⟩ := hp
  rw [trajectory_ok h] at h1 h2
  cases h1; cases h2
  exact h3

theorem weight_xorB (a b : Bytes 16) : weight (xorB a b) = distance a b := by
  unfold weight distance
  congr 1
  funext j
  have : (xorB a b)[j] = a[j] ^^^ b[j] := AesSpec.Differential.getElem_xorB a b j.val j.isLt
  rw [this]
  by_cases h : a[j] = b[j]
  · rw [h]; simp
  · rw [(bne_iff_ne).2 h, bne_iff_ne]
    exact fun hx => h (BitVec.xor_eq_zero_iff.mp hx)

theorem xorB_self (a : Bytes 16) : xorB a a = zeroB 16 := by
  apply Vector.ext; intro i hi
  rw [AesSpec.Differential.getElem_xorB]; simp [zeroB]

/-- The differences that enter the rounds weigh what C56 counts. -/
theorem along_weight (f : Bytes 16 → Bytes 16 → Bytes 16) (x y : Bytes 16) (ks : List (Bytes 16)) :
    (((List.zipWith xorB (states f x ks) (states f y ks)).dropLast).map weight).sum = totalDistance (Trail.inputs f x ks) (Trail.inputs f y ks) := by
  induction ks generalizing x y with
  | nil => rfl
  | cons k ks ih =>
    obtain ⟨l, e⟩ := zip_ne_nil f (f x k) (f y k) ks
    have ih := ih (f x k) (f y k)
    rw [e] at ih
    simp only [states, List.zipWith_cons_cons, e, Trail.inputs, totalDistance, List.dropLast_cons_cons, List.map_cons, List.sum_cons,
      weight_xorB] at ih ⊢
    rw [ih]

theorem length_states (f : Bytes 16 → Bytes 16 → Bytes 16) (x : Bytes 16) (ks : List (Bytes 16)) : (states f x ks).length = ks.length + 1 := by
  induction ks generalizing x with
  | nil => rfl
  | cons k ks ih => simp only [states, List.length_cons, ih]

theorem bound {f : Bytes 16 → Bytes 16 → Bytes 16} (R : BoxRound f) {sh : Fin 4 → Fin 4 → Fin 4} (hs : Trail.Shift sh)
    (hf : ∀ a b k, Trail.Round sh (Trail.pat a b) (Trail.pat (f a k) (f b k)))
    {op : Bytes 16 → Bytes 16 → M (Bytes 16)} (h : ∀ x k, op x k = .ok (f x k)) : DifferentialBound op := by
  intro ds
  have h1 := AtMost.mono (R.along ds) fun p hp => follows_along h hp
  refine ⟨h1, fun d hd hne => ?_⟩
  -- if nothing follows `ds` there is nothing to count; otherwise C56 bounds the weight of `ds`
  by_cases hw : 150 * ((ds.length - 1) / 4) ≤ 6 * (ds.dropLast.map weight).sum
  · intro l hl hp
    refine Nat.le_trans (h1 l hl hp) (Nat.pow_le_pow_right (by decide) ?_)
    omega
  · intro l _ hp
    cases l with
    | nil => exact Nat.zero_le _
    | cons p l =>
      refine absurd ?_ hw
      have hp := follows_along h (hp p (List.mem_cons_self ..))
      obtain ⟨x, y, ks⟩ := p
      simp only [Along] at hp
      obtain ⟨t, e⟩ := zip_ne_nil f x y ks
      have hd' : xorB x y = d := by
        rw [← hp, e] at hd
        exact Option.some.inj hd
      have hxy : x ≠ y := by
        rintro rfl
        exact hne (by rw [← hd', xorB_self])
      have hlen : ds.length = ks.length + 1 := by
        rw [← hp, List.length_zipWith, length_states, length_states, Nat.min_self]
      have hb := Trail.bound hs hf ks x y hxy
      rw [← along_weight, hp] at hb
      rw [hlen, Nat.add_sub_cancel]
      omega

end Differential

/-- C59 for `enc`, on every target. -/
theorem C59_enc (t : Target) : DifferentialBound (encBytes t) :=
  Differential.bound AesSpec.Differential.encBox Trail.shR_shift Trail.encRound_round (C12_enc t)
/-- C59 for `dec`, on every target (RISC-V-32 included). -/
theorem C59_dec (t : Target) : DifferentialBound (decBytes t) := by
  by_cases hrv : t = .riscv32
  · subst hrv; exact Differential.bound AesSpec.Differential.rv32DecBox Trail.shR_shift Trail.rv32DecRound_round C41_dec
  · exact Differential.bound AesSpec.Differential.decBox Trail.shL_shift Trail.decRound_round (C13_dec t hrv)

/-- Read for one round: of all blocks, at most `2^122` turn a given one-byte difference into a given difference, with whatever key. -/
theorem C59_one_round (t : Target) (d d' : Bytes 16) (hd : weight d = 1) (k : Bytes 16) :
    AtMost (fun x => ∃ u v, encBytes t x k = .ok u ∧ encBytes t (xorB x d) k = .ok v ∧ xorB u v = d') (2 ^ 122) := by
  have h := AesSpec.Differential.encBox.one d d'
  have e := AesSpec.Differential.choices_prod d
  rw [hd] at e
  have e' : (∏ r : Fin 4, ∏ c : Fin 4, AesSpec.Differential.choices (State.ofBytes d r c)) = 2 ^ 122 := by
    apply Nat.eq_of_mul_eq_mul_right (Nat.two_pow_pos 6)
    exact e
  rw [e'] at h
  refine AtMost.mono h ?_
  rintro x ⟨u, v, h1, h2, h3⟩
  rw [show encBytes t x k = _ from C12_enc t x k] at h1
  rw [show encBytes t (xorB x d) k = _ from C12_enc t _ k] at h2
  cases h1; cases h2
  exact ⟨k, h3⟩

/-- The pair of C56's example follows a characteristic of weights 1, 4, 16, 4, so the hypotheses are met: with probability at most
`2^-150` over blocks and keys, but met. -/
example (t : Target) : ∃ ds, Follows (encBytes t) ds (zeroB 16, (zeroB 16).set 0 1, [zeroB 16,
      #v[0xec, 0xcd, 0xa5, 0xb1, 0xbb, 0xa7, 0xea, 0x90, 0x9e, 0x39, 0xdc, 0xfc, 0x2e, 0x9a, 0x84, 0xf9], zeroB 16, zeroB 16]) ∧
    ds.length = 5 ∧ ds.head? = some ((zeroB 16).set 0 1) ∧ ds.dropLast.map weight = [1, 4, 16, 4] := by
  refine ⟨_, ⟨_, _, Differential.trajectory_ok (C12_enc t) _ _, Differential.trajectory_ok (C12_enc t) _ _, rfl⟩, ?_⟩
  decide +kernel

/-- The constant cannot be improved: with key zero, four values of the first byte turn the difference `01` into the same one. -/
example (t : Target) : ∀ b ∈ [0x00#8, 0x01#8, 0xbc#8, 0xbd#8], ∃ u v,
    encBytes t ((zeroB 16).set 0 b) (zeroB 16) = .ok u ∧ encBytes t ((zeroB 16).set 0 (b ^^^ 1)) (zeroB 16) = .ok v ∧
    xorB u v = #v[0x3e, 0x1f, 0x1f, 0x21, 0, 0, 0, 0, 0, 0, 0, 0, 0, 0, 0, 0] := by
  have h : ∀ b, xorB (encRound ((zeroB 16).set 0 b) (zeroB 16)) (encRound ((zeroB 16).set 0 (b ^^^ 1)) (zeroB 16)) =
      #v[0x3e, 0x1f, 0x1f, 0x21, 0, 0, 0, 0, 0, 0, 0, 0, 0, 0, 0, 0] → ∃ u v,
    encBytes t ((zeroB 16).set 0 b) (zeroB 16) = .ok u ∧ encBytes t ((zeroB 16).set 0 (b ^^^ 1)) (zeroB 16) = .ok v ∧
    xorB u v = #v[0x3e, 0x1f, 0x1f, 0x21, 0, 0, 0, 0, 0, 0, 0, 0, 0, 0, 0, 0] :=
    fun b hb => ⟨_, _, C12_enc t _ _, C12_enc t _ _, hb⟩
  intro b hb
  refine h b ?_
  simp only [List.mem_cons, List.not_mem_nil, or_false] at hb
  rcases hb with rfl | rfl | rfl | rfl
  all_goals decide +kernel

end Aes
