import Verif.Properties.Trail
import Verif.Proofs.Linear
/-!
C65: the linear bound, the counterpart of C59. A linear approximation of a round claims that a sum of chosen bits of the input (a mask)
equals a sum of chosen bits of the output. Its imbalance is at most `2^(128 - 3 w)` of `2^128`, where `w` is the number of bytes that the
input mask touches. With the wide trail argument (C56) on masks, a trail of approximations through `n` rounds that starts with a mask
that is not zero has at most `2^(-75 (n/4))` of the possible imbalance, so `2^(-150)` for eight rounds. What the trails have to do with many rounds is
also proved: the imbalance of `n` rounds is the sum over all trails, and its square, averaged over the keys, is the sum over all trails of the squares.
It holds for `enc` and for `dec`, on every target.
-/
namespace Aes
open Rust AesSpec Fips197 AesVec AesBlock Target
open scoped BigOperators

/-- What C65 says of a round `op` that returns `f x k`. -/
structure LinearBound (op : Bytes 16 → Bytes 16 → M (Bytes 16)) (f : Bytes 16 → Bytes 16 → Bytes 16) : Prop where
  /-- `f` is what the round computes. -/
  returns : ∀ x k, op x k = .ok (f x k)
  /-- One round, with any key. -/
  round : ∀ k u v, (imbalance (fun x => f x k) u v).natAbs ≤ 2 ^ (128 - 3 * weight u)
  /-- The key decides the sign only. -/
  key : ∀ k k' u v, (imbalance (fun x => f x k) u v).natAbs = (imbalance (fun x => f x k') u v).natAbs
  /-- A trail through `n` rounds: all the masks that enter a round count. -/
  trail : ∀ us ks : List (Bytes 16), us.length = ks.length + 1 →
    (trailImbalance f us ks).natAbs ≤ 2 ^ (128 * ks.length - 3 * (us.dropLast.map weight).sum)
  /-- A trail through `n` rounds whose first mask is not zero. -/
  wide : ∀ us ks : List (Bytes 16), us.length = ks.length + 1 → ∀ u, us.head? = some u → u ≠ zeroB 16 →
    (trailImbalance f us ks).natAbs ≤ 2 ^ (128 * ks.length - 75 * (ks.length / 4))
  /-- The imbalance of `n + 1` rounds one after the other is the sum of those of the trails between the two masks. -/
  sum : ∀ u v k ks, 2 ^ (128 * ks.length) * imbalance (fun x => (k :: ks).foldl f x) u v =
    sumLists ks.length fun ws => trailImbalance f (u :: ws ++ [v]) (k :: ks)
  /-- The square of it, averaged over all keys, is the sum of the squares of those of the trails (which do not depend on the keys `ks₀`). -/
  hull : ∀ u v n (ks₀ : List (Bytes 16)), ks₀.length = n + 1 →
    sumLists (n + 1) (fun ks => (2 ^ (128 * n) * imbalance (fun x => ks.foldl f x) u v) ^ 2) =
      2 ^ (128 * (n + 1)) * sumLists n fun ws => trailImbalance f (u :: ws ++ [v]) ks₀ ^ 2

namespace Linear
open AesSpec.Linear AesSpec.Differential
open Trail

theorem weight_total (u : Bytes 16) : weight u = total (patM u) := by
  rw [weight_sum]
  have e (b : Byte) : (decide (b ≠ 0#8)).toNat = if b = 0#8 then 0 else 1 := by
    by_cases h : b = 0#8 <;> simp [h]
  simp only [Fin.sum_univ_four, total, Diffusion.wt, patM, e]
  omega

theorem exists_active {u : Bytes 16} (h : u ≠ zeroB 16) : ∃ c, act (patM u) c = true := by
  apply Classical.byContradiction
  intro hn
  refine h (AesSpec.Differential.ofBytes_inj (funext fun r => funext fun c => ?_))
  have z : State.ofBytes (zeroB 16) r c = 0#8 := by simp [State.ofBytes, zeroB]
  rw [z]
  apply Classical.byContradiction
  intro hne
  exact hn ⟨c, act_true.2 ⟨r, by simpa [patM] using hne⟩⟩

theorem active_ne {u : Bytes 16} {c : Fin 4} (h : act (patM u) c = true) : u ≠ zeroB 16 := by
  rintro rfl
  obtain ⟨r, hr⟩ := act_true.1 h
  simp [patM, State.ofBytes, zeroB] at hr

theorem round_active {sh : Fin 4 → Fin 4 → Fin 4} (hs : Shift sh) {A A' : Pat} (hR : Round sh A A') (h : ∃ c, act A c = true) :
    ∃ c, act A' c = true := by
  obtain ⟨c, hc⟩ := h
  have h1 := hs.gather A c
  have h2 : 0 < Diffusion.wt (A · c) := by
    obtain ⟨r, hr⟩ := act_true.1 hc
    simp only [Diffusion.wt]
    match r with
    | 0 => rw [hr]; simp only [Bool.toNat_true]; omega
    | 1 => rw [hr]; simp only [Bool.toNat_true]; omega
    | 2 => rw [hr]; simp only [Bool.toNat_true]; omega
    | 3 => rw [hr]; simp only [Bool.toNat_true]; omega
  apply Classical.byContradiction
  intro hn
  have : cols (moved sh A) = 0 := by
    have z (c : Fin 4) : act (moved sh A) c = false := by
      rw [← (hR c).1]
      cases e : act A' c with
      | false => rfl
      | true => exact absurd ⟨c, e⟩ hn
    simp only [cols, Diffusion.wt, z]; rfl
  omega

variable {f : Bytes 16 → Bytes 16 → Bytes 16} {sh : Fin 4 → Fin 4 → Fin 4}

theorem four_cons {us : List (Bytes 16)} {n : Nat} (h : us.length = n + 1 + 1 + 1 + 1) : ∃ a b c d l, us = a :: b :: c :: d :: l ∧ l.length = n := by
  match us, h with
  | a :: b :: c :: d :: l, h => exact ⟨a, b, c, d, l, rfl, by simpa using h⟩

theorem trail_weights (hs : Shift sh) (hf : ∀ {k u v : Bytes 16}, imbalance (fun x => f x k) u v ≠ 0 → Round sh (patM u) (patM v)) :
    ∀ (ks us : List (Bytes 16)) (u : Bytes 16), us.length = ks.length → u ≠ zeroB 16 → trailImbalance f (u :: us) ks ≠ 0 →
      25 * (ks.length / 4) ≤ ((u :: us).dropLast.map weight).sum
  | k0 :: k1 :: k2 :: k3 :: ks, us, u, hl, hu, h => by
    obtain ⟨u1, u2, u3, u4, us, rfl, hl'⟩ := four_cons hl
    simp only [trailImbalance] at h
    have h0 := left_ne_zero_of_mul h
    have h := right_ne_zero_of_mul h
    have h1 := left_ne_zero_of_mul h
    have h := right_ne_zero_of_mul h
    have h2 := left_ne_zero_of_mul h
    have h := right_ne_zero_of_mul h
    have h3 := left_ne_zero_of_mul h
    have h := right_ne_zero_of_mul h
    have r0 := hf h0
    have r1 := hf h1
    have r2 := hf h2
    have r3 := hf h3
    have a1 := round_active hs r0 (exists_active hu)
    have a2 := round_active hs r1 a1
    have a3 := round_active hs r2 a2
    obtain ⟨c, hc⟩ := round_active hs r3 a3
    have ih := trail_weights hs hf ks us u4 hl' (active_ne hc) h
    have h4 := four hs r0 r1 r2 a2
    have e : (k0 :: k1 :: k2 :: k3 :: ks).length / 4 = ks.length / 4 + 1 := by simp only [List.length_cons]; omega
    rw [e]
    simp only [List.dropLast_cons_cons, List.map_cons, List.sum_cons, weight_total] at ih ⊢
    omega
  | [], _, _, _, _, _ | [_], _, _, _, _, _ | [_, _], _, _, _, _, _ | [_, _, _], _, _, _, _, _ => by simp

theorem trail_bound (hf : ∀ k u v : Bytes 16, (imbalance (fun x => f x k) u v).natAbs * 2 ^ (3 * weight u) ≤ 2 ^ 128) :
    ∀ (ks us : List (Bytes 16)) (u : Bytes 16), us.length = ks.length →
      (trailImbalance f (u :: us) ks).natAbs * 2 ^ (3 * ((u :: us).dropLast.map weight).sum) ≤ 2 ^ (128 * ks.length)
  | [], [], _, _ => by simp [trailImbalance]
  | k :: ks, v :: us, u, hl => by
    have ih := trail_bound hf ks us v (by simpa using hl)
    have h := hf k u v
    simp only [trailImbalance, List.dropLast_cons_cons, List.map_cons, List.sum_cons, List.length_cons, Int.natAbs_mul]
    rw [Nat.mul_add, Nat.pow_add, Nat.mul_add, Nat.pow_add, Nat.mul_one, Nat.mul_comm (2 ^ (128 * ks.length)),
      Nat.mul_mul_mul_comm]
    exact Nat.mul_le_mul h ih

theorem le_two_pow_sub {a m N : Nat} (h : a * 2 ^ m ≤ 2 ^ N) (hm : m ≤ N) : a ≤ 2 ^ (N - m) := by
  refine Nat.le_of_mul_le_mul_right (Nat.le_trans h (Nat.le_of_eq ?_)) (Nat.two_pow_pos m)
  rw [← Nat.pow_add, Nat.sub_add_cancel hm]

theorem weights_le3 (us : List (Bytes 16)) : 3 * (us.map weight).sum ≤ 128 * us.length := by
  have := weights_le us
  omega

theorem sumLists_mul (n : Nat) (a : Int) (F : List (Bytes 16) → Int) : sumLists n (fun bs => a * F bs) = a * sumLists n F := by
  induction n generalizing F with
  | zero => rfl
  | succ n ih => simp only [sumLists, ih, Finset.mul_sum]

theorem sumLists_comm (n : Nat) (F : Bytes 16 → List (Bytes 16) → Int) :
    sumLists n (fun bs => ∑ b : Bytes 16, F b bs) = ∑ b : Bytes 16, sumLists n (F b) := by
  induction n generalizing F with
  | zero => rfl
  | succ n ih =>
    simp only [sumLists, ih]
    exact Finset.sum_comm

theorem trail_sum (u v k : Bytes 16) (ks : List (Bytes 16)) : 2 ^ (128 * ks.length) * imbalance (fun x => (k :: ks).foldl f x) u v =
    sumLists ks.length fun ws => trailImbalance f (u :: ws ++ [v]) (k :: ks) := by
  induction ks generalizing u k with
  | nil => simp [sumLists, trailImbalance]
  | cons k' ks ih =>
    simp only [List.length_cons, sumLists, List.cons_append]
    have e (w : Bytes 16) : (sumLists ks.length fun ws => trailImbalance f (u :: w :: (ws ++ [v])) (k :: k' :: ks)) =
        imbalance (fun x => f x k) u w * (2 ^ (128 * ks.length) * imbalance (fun x => (k' :: ks).foldl f x) w v) := by
      rw [ih]
      exact sumLists_mul _ _ _
    simp only [e]
    have c := compose (fun x => f x k) (fun x => (k' :: ks).foldl f x) u v
    have : ∀ w, imbalance (fun x => f x k) u w * (2 ^ (128 * ks.length) * imbalance (fun x => (k' :: ks).foldl f x) w v) =
      2 ^ (128 * ks.length) * (imbalance (fun x => f x k) u w * imbalance (fun x => (k' :: ks).foldl f x) w v) := fun w => by
        rw [← Int.mul_assoc, ← Int.mul_assoc, Int.mul_comm _ (2 ^ _)]
    simp only [this, ← Finset.mul_sum, c]
    rw [Nat.mul_add, Int.pow_add, Int.mul_assoc]
    rfl

/-- Two functions of lists of a given length. -/
theorem sumLists_congr (n : Nat) {F G : List (Bytes 16) → Int} (h : ∀ l, l.length = n → F l = G l) : sumLists n F = sumLists n G := by
  induction n generalizing F G with
  | zero => exact h [] rfl
  | succ n ih => exact Finset.sum_congr rfl fun b _ => ih fun l hl => h (b :: l) (by simp [hl])

theorem trail_hull (R : BoxRound f) (n : Nat) (u v : Bytes 16) (ks₀ : List (Bytes 16)) (h0 : ks₀.length = n + 1) :
    sumLists (n + 1) (fun ks => (2 ^ (128 * n) * imbalance (fun x => ks.foldl f x) u v) ^ 2) =
      2 ^ (128 * (n + 1)) * sumLists n fun ws => trailImbalance f (u :: ws ++ [v]) ks₀ ^ 2 := by
  have sq (k u v : Bytes 16) : imbalance (fun x => f x k) u v ^ 2 = imbalance (fun x => f x (zeroB 16)) u v ^ 2 := by
    have := congrArg (fun n : Nat => n * n) (epsS_abs (State.ofBytes v) (State.ofBytes k))
    rw [imbalance_key R, mul_pow, sign_state, pow_two (epsS _ _)]
    have e : epsS (State.ofBytes v) (State.ofBytes k) * epsS (State.ofBytes v) (State.ofBytes k) = 1 := by
      rw [← Int.natAbs_mul_self, epsS_abs]; rfl
    rw [e, Int.one_mul]
  induction n generalizing u ks₀ with
  | zero =>
    obtain ⟨k₀, rfl⟩ : ∃ k, ks₀ = [k] := List.length_eq_one_iff.1 h0
    have e (b : Bytes 16) : (2 ^ (128 * 0) * imbalance (fun x => f x b) u v) ^ 2 = imbalance (fun x => f x k₀) u v ^ 2 := by
      rw [show (2 : Int) ^ (128 * 0) = 1 from rfl, Int.one_mul, sq b, sq k₀]
    simp only [sumLists, List.foldl_cons, List.foldl_nil, e, Finset.sum_const, Finset.card_univ, nsmul_eq_mul, List.cons_append, List.nil_append,
      trailImbalance, Int.mul_one]
    exact congrArg (· * _) card_blocks
  | succ n ih =>
    obtain ⟨k₀, ks₀, rfl⟩ : ∃ k ks, ks₀ = k :: ks := by
      cases ks₀ with
      | nil => simp at h0
      | cons k ks => exact ⟨k, ks, rfl⟩
    have h0 : ks₀.length = n + 1 := by simpa using h0
    have hQ (m : Nat) : (2 : Int) ^ (128 * m) = (2 ^ 128) ^ m := pow_mul _ _ _
    have pars := parseval
    have comp := @compose
    simp only [hQ] at ih ⊢
    generalize (2 : Int) ^ 128 = Q at *
    -- the first key, by Parseval
    have step (ks : List (Bytes 16)) : ∑ k : Bytes 16, (Q ^ (n + 1) * imbalance (fun x => (k :: ks).foldl f x) u v) ^ 2 =
        Q * ∑ w : Bytes 16, imbalance (fun x => f x (zeroB 16)) u w ^ 2 * (Q ^ n * imbalance (fun x => ks.foldl f x) w v) ^ 2 := by
      simp only [← mul_pow (imbalance _ _ _)]
      rw [← pars]
      refine Finset.sum_congr rfl fun k _ => congrArg (· ^ 2) ?_
      have c := comp (fun x => f x k) (fun x => ks.foldl f x) u v
      show Q ^ (n + 1) * imbalance (fun x => ks.foldl f (f x k)) u v = _
      rw [pow_succ, Int.mul_assoc, ← c, Finset.mul_sum]
      refine Finset.sum_congr rfl fun w _ => ?_
      rw [imbalance_key R k u w]
      ring
    rw [sumLists]
    have : (∑ b : Bytes 16, sumLists (n + 1) fun bs => (Q ^ (n + 1) * imbalance (fun x => (b :: bs).foldl f x) u v) ^ 2) =
        sumLists (n + 1) fun ks => Q * ∑ w : Bytes 16,
          imbalance (fun x => f x (zeroB 16)) u w ^ 2 * (Q ^ n * imbalance (fun x => ks.foldl f x) w v) ^ 2 := by
      rw [← sumLists_comm]
      exact congrArg _ (funext step)
    rw [this, sumLists_mul, sumLists_comm]
    have e (w : Bytes 16) : (sumLists (n + 1) fun ks => imbalance (fun x => f x (zeroB 16)) u w ^ 2 * (Q ^ n * imbalance (fun x => ks.foldl f x) w v) ^ 2) =
        Q ^ (n + 1) * sumLists n fun ws => trailImbalance f (u :: (w :: ws) ++ [v]) (k₀ :: ks₀) ^ 2 := by
      rw [sumLists_mul, ih w ks₀ h0, ← sq k₀ u w]
      simp only [List.cons_append, trailImbalance, mul_pow, sumLists_mul]
      ring
    simp only [e, ← Finset.mul_sum]
    rw [sumLists]
    ring

theorem bound (R : BoxRound f) (hm : ColumnMix R.mix) (hb : Box R.box) (hs : Shift R.sh)
    {op : Bytes 16 → Bytes 16 → M (Bytes 16)} (h : ∀ x k, op x k = .ok (f x k)) : LinearBound op f where
  returns := h
  round k u v := by
    have := weight_le u
    exact le_two_pow_sub (round_bound R hm hb k u v) (by omega)
  key k k' u v := by
    rw [imbalance_key R k, imbalance_key R k', Int.natAbs_mul, Int.natAbs_mul, sign_state, sign_state, epsS_abs, epsS_abs]
  trail us ks hl := by
    cases us with
    | nil => simp at hl
    | cons u us =>
      have hl : us.length = ks.length := by simpa using hl
      refine le_two_pow_sub (trail_bound (round_bound R hm hb) ks us u hl) ?_
      have := weights_le3 (u :: us).dropLast
      simpa [hl] using this
  wide us ks hl u hu hne := by
    cases us with
    | nil => simp at hl
    | cons u' us =>
      cases hu
      have hl : us.length = ks.length := by simpa using hl
      by_cases hz : trailImbalance f (u :: us) ks = 0
      · rw [hz]; exact Nat.zero_le _
      · have h1 := trail_weights hs (fun h => round_pattern R hm hb h) ks us u hl hne hz
        have h2 := weights_le3 (u :: us).dropLast
        have h2 : 3 * ((u :: us).dropLast.map weight).sum ≤ 128 * ks.length := by simpa [hl] using h2
        refine Nat.le_trans (le_two_pow_sub (trail_bound (round_bound R hm hb) ks us u hl) h2) (Nat.pow_le_pow_right (by decide) ?_)
        omega
  sum := trail_sum
  hull u v n ks₀ h0 := trail_hull R n u v ks₀ h0

theorem mix : ColumnMix mixColumns := ⟨mixColumns_add, mix_column⟩
theorem invMix : ColumnMix invMixColumns := ⟨invMixColumns_add, invMix_column⟩
theorem box : Box sbox := ⟨fun _ _ h => Diffusion.sbox_inj.1 h, sbox_walsh⟩
theorem invBox : Box invSbox := ⟨fun _ _ h => Diffusion.invSbox_inj.1 h, invSbox_walsh⟩
end Linear

/-- C65 for `enc`, on every target: it returns the FIPS-197 round, and the bounds hold of that. -/
theorem C65_enc (t : Target) : LinearBound (encBytes t) encRound :=
  Linear.bound AesSpec.Differential.encBox Linear.mix Linear.box Trail.shR_shift (C12_enc t)
/-- C65 for `dec`, on every target (RISC-V-32, whose `dec` computes something else, included). -/
theorem C65_dec (t : Target) : ∃ f, LinearBound (decBytes t) f := by
  by_cases hrv : t = .riscv32
  · subst hrv; exact ⟨_, Linear.bound AesSpec.Differential.rv32DecBox Linear.invMix Linear.invBox Trail.shR_shift C41_dec⟩
  · exact ⟨_, Linear.bound AesSpec.Differential.decBox Linear.invMix Linear.invBox Trail.shL_shift (C13_dec t hrv)⟩

/-- Eight rounds of `enc` with any keys: a trail that starts with a mask that is not zero has at most `2^-150` of the `2^1024` that it
could have. -/
theorem C65_eight_rounds (t : Target) (us ks : List (Bytes 16)) (hk : ks.length = 8) (hu : us.length = 9) (u : Bytes 16)
    (h : us.head? = some u) (hne : u ≠ zeroB 16) :
    (∀ x, ks.foldlM (encBytes t) x = .ok (ks.foldl encRound x)) ∧ (trailImbalance encRound us ks).natAbs ≤ 2 ^ (1024 - 150) := by
  refine ⟨fun x => ?_, ?_⟩
  · clear hk
    induction ks generalizing x with
    | nil => rfl
    | cons k ks ih => rw [List.foldlM_cons, (C65_enc t).returns, bind_ok, ih, List.foldl_cons]
  · have := (C65_enc t).wide us ks (by omega) u h hne
    exact Nat.le_trans this (Nat.le_of_eq (congrArg (2 ^ ·) (by rw [hk])))

namespace Linear
open AesSpec.Linear AesSpec.Differential

/-- Every mask before the mix is the transposed of some mask. -/
theorem reach {mix unmix : State → State} (h : ColumnMix unmix) (hu : ∀ s, unmix (mix s) = s) (T : State) :
    ∃ v : Bytes 16, ∀ Y, epsS (State.ofBytes v) (mix Y) = epsS T Y := by
  obtain ⟨V, hV, -⟩ := h.transpose T
  refine ⟨State.toBytes V, fun Y => ?_⟩
  rw [ofBytes_toBytes, ← hV, hu]

theorem walsh_32 : walsh sbox 0x2d#8 0x01#8 = -32 := by
  have e : walsh sbox 0x2d#8 0x01#8 = 256 - 2 * ((bitsOf 0x2d#8 0x01#8).countP id : Nat) := by
    rw [walsh_fin]
    have := sum_sgn fun n : Fin 256 => par 0x2d#8 (BitVec.ofFin n) ^^ par 0x01#8 (sbox (BitVec.ofFin n))
    simp only [sgn_xor] at this
    exact this
  have : (bitsOf 0x2d#8 0x01#8).countP id = 144 := by decide +kernel
  rw [e, this]
  rfl

/-- One round with a mask of one byte that has exactly the largest imbalance. -/
theorem attained (k : Bytes 16) : ∃ v, (imbalance (fun x => encRound x k) ((zeroB 16).set 0 0x2d#8) v).natAbs = 2 ^ 125 := by
  let T : State := fun r c => if r = 0 ∧ c = 0 then 0x01#8 else 0#8
  obtain ⟨v, hv⟩ := reach (mix := mixColumns) invMix invMixColumns_mixColumns T
  refine ⟨v, ?_⟩
  have e (x : Bytes 16) : sign ((zeroB 16).set 0 0x2d#8) x * sign v (encRound x k) = sign v k *
      ∏ r, ∏ c, eps (State.ofBytes ((zeroB 16).set 0 0x2d#8) r c) (State.ofBytes x r c) * eps (T r (c - r)) (sbox (State.ofBytes x r c)) := by
    have h1 : epsS T (shiftRows (subBytes (State.ofBytes x))) = ∏ r, ∏ c, eps (T r (c - r)) (sbox (State.ofBytes x r c)) := by
      refine Finset.prod_congr rfl fun r _ => ?_
      have hinj : Function.Injective fun c : Fin 4 => c - r := fun c c' h => by
        have h := congrArg (· + r) h
        simpa [shR_back] using h
      rw [← Equiv.prod_comp (Equiv.ofBijective _ (Finite.injective_iff_bijective.1 hinj))]
      refine Finset.prod_congr rfl fun c _ => ?_
      show eps (T r (c - r)) (sbox (State.ofBytes x r (c - r + r))) = _
      rw [shR_back]
    simp only [Finset.prod_mul_distrib]
    rw [← h1, ← hv, sign_state v, encBox.eq, ofBytes_toBytes, add_key, epsS_add, sign_state _ x, sign_state v]
    show epsS _ _ * (epsS _ (mixColumns (shiftRows (subBytes (State.ofBytes x)))) * _) = _ * (epsS _ _ * _)
    ring
  simp only [imbalance, e, ← Finset.mul_sum]
  rw [sum_blocks fun X => ∏ r, ∏ c, eps (State.ofBytes ((zeroB 16).set 0 0x2d#8) r c) (X r c) * eps (T r (c - r)) (sbox (X r c)),
    sum_prod fun r c x => eps (State.ofBytes ((zeroB 16).set 0 0x2d#8) r c) x * eps (T r (c - r)) (sbox x)]
  show (_ * ∏ r, ∏ c, walsh sbox (State.ofBytes ((zeroB 16).set 0 0x2d#8) r c) (T r (c - r))).natAbs = _
  rw [Int.natAbs_mul, sign_state, epsS_abs, Nat.one_mul, natAbs_prod]
  simp only [natAbs_prod]
  have h (r c : Fin 4) : (walsh sbox (State.ofBytes ((zeroB 16).set 0 0x2d#8) r c) (T r (c - r))).natAbs = if r = 0 ∧ c = 0 then 32 else 256 := by
    by_cases hrc : r = 0 ∧ c = 0
    · obtain ⟨rfl, rfl⟩ := hrc
      exact congrArg Int.natAbs walsh_32
    · have h1 : State.ofBytes ((zeroB 16).set 0 0x2d#8) r c = 0#8 := by
        revert r c; decide
      have z : ∀ c : Fin 4, c - 0 = 0 → c = 0 := by decide
      have h2 : T r (c - r) = 0#8 := if_neg fun h : r = 0 ∧ c - r = 0 => hrc ⟨h.1, z c (by have := h.2; rwa [h.1] at this)⟩
      rw [h1, h2, walsh_zero, if_neg hrc]
      rfl
  simp only [h]
  decide
end Linear

/-- The one-round bound is attained, with every key: with this mask of weight one (on the bits of the first byte) and some output mask. -/
example (t : Target) (k : Bytes 16) : weight ((zeroB 16).set 0 0x2d#8) = 1 ∧ (∀ x, encBytes t x k = .ok (encRound x k)) ∧
    ∃ v, (imbalance (fun x => encRound x k) ((zeroB 16).set 0 0x2d#8) v).natAbs = 2 ^ (128 - 3 * 1) :=
  ⟨by decide, fun x => C12_enc t x k, Linear.attained k⟩

end Aes
