import Verif.Proofs.SpecCipher
import Verif.Proofs.DefaultWide
/-! src/lib.rs, generically over the laws of the selected modules. -/
namespace Aes
open Rust AesSpec Fips197

/-! ### chain_enc / chain_dec -/
section chain
variable {T : Type} {n : Nat} [AesVec T n]
open AesVec

theorem chain_enc_nil (x : T) : chain_enc x [] = .error .panic := by
  unfold chain_enc
  split
  · rfl
  · rfl
theorem chain_dec_nil (x : T) : chain_dec x [] = .error .panic := by
  unfold chain_dec
  split
  · rfl
  · rfl

theorem assert_ne0 {α} (k : α) (ks : List α) : assert ((k :: ks).length != 0) = .ok () := rfl

/-- The `pre_enc` loop, in general. -/
theorem chain_enc_pre_eq (p : Pre T) (x k0 : T) (ks : List T) :
    chain_enc_pre p x (k0 :: ks) = .ok (bitxor ((k0 :: ks).dropLast.foldl p.pre_enc x) ((k0 :: ks).getLast (by simp))) := by
  unfold chain_enc_pre
  rw [assert_ne0, bind_ok, sliceTo_ok _ _ (by simp), bind_ok]
  simp only []
  rw [sidx_ok _ _ (by simp), bind_ok, pure_ok, ← List.dropLast_eq_take, List.getLast_eq_getElem]
theorem chain_dec_pre_eq (p : Pre T) (x k0 : T) (ks : List T) :
    chain_dec_pre p x (k0 :: ks) = .ok (bitxor ((k0 :: ks).dropLast.foldl p.pre_dec x) ((k0 :: ks).getLast (by simp))) := by
  unfold chain_dec_pre
  rw [assert_ne0, bind_ok, sliceTo_ok _ _ (by simp), bind_ok]
  simp only []
  rw [sidx_ok _ _ (by simp), bind_ok, pure_ok, ← List.dropLast_eq_take, List.getLast_eq_getElem]
theorem chain_enc_std_eq (x k0 : T) (ks : List T) :
    chain_enc_std x (k0 :: ks) = .ok (ks.foldl enc (bitxor x k0)) := by
  unfold chain_enc_std
  rw [assert_ne0, bind_ok, sidx_ok _ _ (by simp), bind_ok, sliceFrom_ok _ _ (by simp), bind_ok, pure_ok]
  rfl
theorem chain_dec_std_eq (x k0 : T) (ks : List T) :
    chain_dec_std x (k0 :: ks) = .ok (ks.foldl dec (bitxor x k0)) := by
  unfold chain_dec_std
  rw [assert_ne0, bind_ok, sidx_ok _ _ (by simp), bind_ok, sliceFrom_ok _ _ (by simp), bind_ok, pure_ok]
  rfl

/-- The key-first loop computes the key-last one. -/
theorem foldl_pre (xor rnd pre : T → T → T) (h : ∀ a k k', xor (pre a k) k' = rnd (xor a k) k') (ks : List T) :
    ∀ x k0, xor ((k0 :: ks).dropLast.foldl pre x) ((k0 :: ks).getLast (by simp)) = ks.foldl rnd (xor x k0) := by
  induction ks with
  | nil => intro x k0; rfl
  | cons k1 ks ih =>
    intro x k0
    rw [List.dropLast_cons_of_ne_nil (by simp), List.foldl_cons, List.getLast_cons (by simp), ih, List.foldl_cons, h]

variable [LawfulPre T]
theorem chain_enc_cons (x k0 : T) (ks : List T) :
    chain_enc x (k0 :: ks) = .ok (ks.foldl enc (bitxor x k0)) := by
  unfold chain_enc
  split
  · next p hp => rw [chain_enc_pre_eq, foldl_pre _ enc _ (LawfulPre.pre_enc_eq p hp)]
  · exact chain_enc_std_eq x k0 ks
theorem chain_dec_cons (x k0 : T) (ks : List T) :
    chain_dec x (k0 :: ks) = .ok (ks.foldl dec (bitxor x k0)) := by
  unfold chain_dec
  split
  · next p hp => rw [chain_dec_pre_eq, foldl_pre _ dec _ (LawfulPre.pre_dec_eq p hp)]
  · exact chain_dec_std_eq x k0 ks
end chain

/-! ### pairs -/

/-- `f` builds a `T` out of two halves on which the operations act independently. -/
structure Lanes {U T : Type} {m n : Nat} [AesVec U m] [AesVec T n] (f : U × U → T) : Prop where
  surj : ∀ t, ∃ a b, t = f (a, b)
  xor : ∀ a b c d, AesVec.bitxor (f (a, b)) (f (c, d)) = f (AesVec.bitxor a c, AesVec.bitxor b d)
  enc : ∀ a b c d, AesVec.enc (f (a, b)) (f (c, d)) = f (AesVec.enc a c, AesVec.enc b d)
  dec : ∀ a b c d, AesVec.dec (f (a, b)) (f (c, d)) = f (AesVec.dec a c, AesVec.dec b d)
  enc_last : ∀ a b c d, AesVec.enc_last (f (a, b)) (f (c, d)) = f (AesVec.enc_last a c, AesVec.enc_last b d)
  dec_last : ∀ a b c d, AesVec.dec_last (f (a, b)) (f (c, d)) = f (AesVec.dec_last a c, AesVec.dec_last b d)
  pre : PreLanes f AesVec.pre AesVec.pre

section lanes
variable {U T : Type} {m n : Nat} [AesVec U m] [AesVec T n] {f : U × U → T}

theorem Lanes.lawfulPre (h : Lanes f) [LawfulPre U] : LawfulPre T where
  pre_enc_eq q hq a k k' := by
    obtain ⟨a1, a2, rfl⟩ := h.surj a; obtain ⟨k1, k2, rfl⟩ := h.surj k; obtain ⟨l1, l2, rfl⟩ := h.surj k'
    rcases h.pre with ⟨_, h2⟩ | ⟨p, q', hp, hq', he, _⟩
    · rw [h2] at hq; cases hq
    · rw [hq'] at hq; cases hq
      rw [he, h.xor, h.xor, h.enc, LawfulPre.pre_enc_eq p hp, LawfulPre.pre_enc_eq p hp]
  pre_dec_eq q hq a k k' := by
    obtain ⟨a1, a2, rfl⟩ := h.surj a; obtain ⟨k1, k2, rfl⟩ := h.surj k; obtain ⟨l1, l2, rfl⟩ := h.surj k'
    rcases h.pre with ⟨_, h2⟩ | ⟨p, q', hp, hq', _, he⟩
    · rw [h2] at hq; cases hq
    · rw [hq'] at hq; cases hq
      rw [he, h.xor, h.xor, h.dec, LawfulPre.pre_dec_eq p hp, LawfulPre.pre_dec_eq p hp]

theorem foldl_lanes (r : T → T → T) (s : U → U → U) (hr : ∀ a b c d, r (f (a, b)) (f (c, d)) = f (s a c, s b d))
    (ks : List (U × U)) : ∀ a b, (ks.map f).foldl r (f (a, b)) =
      f ((ks.map Prod.fst).foldl s a, (ks.map Prod.snd).foldl s b) := by
  induction ks with
  | nil => intro a b; rfl
  | cons k ks ih =>
    intro a b
    obtain ⟨c, d⟩ := k
    simp only [List.map_cons, List.foldl_cons, hr, ih]

theorem getLast_map' {α β} (g : α → β) (k : α) (ks : List α) (h) :
    (List.map g (k :: ks)).getLast h = g ((k :: ks).getLast (by simp)) := by
  rw [List.getLast_map]

/-- `chain_enc` acts on the two halves independently (on every target). -/
theorem Lanes.chain_enc (h : Lanes f) (a b : U) (ks : List (U × U)) :
    chain_enc (f (a, b)) (ks.map f) = (do
      let x ← chain_enc a (ks.map Prod.fst)
      let y ← chain_enc b (ks.map Prod.snd)
      pure (f (x, y))) := by
  cases ks with
  | nil => simp only [List.map_nil, chain_enc_nil, bind_error]
  | cons k ks =>
    obtain ⟨c, d⟩ := k
    unfold Aes.chain_enc
    rcases h.pre with ⟨h1, h2⟩ | ⟨p, q, hp, hq, he, _⟩
    · rw [h1, h2]
      simp only [List.map_cons, chain_enc_std_eq, bind_ok, pure_ok, h.xor, foldl_lanes _ _ h.enc]
    · rw [hp, hq]
      simp only [List.map_cons, chain_enc_pre_eq, bind_ok, pure_ok]
      have e1 : (f (c, d) :: List.map f ks) = List.map f ((c, d) :: ks) := rfl
      have e2 : (c :: List.map Prod.fst ks) = List.map Prod.fst ((c, d) :: ks) := rfl
      have e3 : (d :: List.map Prod.snd ks) = List.map Prod.snd ((c, d) :: ks) := rfl
      simp only [e1, e2, e3, ← List.map_dropLast, foldl_lanes _ _ he, getLast_map']
      generalize ((c, d) :: ks).getLast (by simp) = kl
      obtain ⟨k1, k2⟩ := kl
      rw [h.xor]

/-- `chain_dec` acts on the two halves independently (on every target). -/
theorem Lanes.chain_dec (h : Lanes f) (a b : U) (ks : List (U × U)) :
    chain_dec (f (a, b)) (ks.map f) = (do
      let x ← chain_dec a (ks.map Prod.fst)
      let y ← chain_dec b (ks.map Prod.snd)
      pure (f (x, y))) := by
  cases ks with
  | nil => simp only [List.map_nil, chain_dec_nil, bind_error]
  | cons k ks =>
    obtain ⟨c, d⟩ := k
    unfold Aes.chain_dec
    rcases h.pre with ⟨h1, h2⟩ | ⟨p, q, hp, hq, _, he⟩
    · rw [h1, h2]
      simp only [List.map_cons, chain_dec_std_eq, bind_ok, pure_ok, h.xor, foldl_lanes _ _ h.dec]
    · rw [hp, hq]
      simp only [List.map_cons, chain_dec_pre_eq, bind_ok, pure_ok]
      have e1 : (f (c, d) :: List.map f ks) = List.map f ((c, d) :: ks) := rfl
      have e2 : (c :: List.map Prod.fst ks) = List.map Prod.fst ((c, d) :: ks) := rfl
      have e3 : (d :: List.map Prod.snd ks) = List.map Prod.snd ((c, d) :: ks) := rfl
      simp only [e1, e2, e3, ← List.map_dropLast, foldl_lanes _ _ he, getLast_map']
      generalize ((c, d) :: ks).getLast (by simp) = kl
      obtain ⟨k1, k2⟩ := kl
      rw [h.xor]
end lanes

section x2
variable {B X2 : Type} [AesBlock B] [LawfulVec B] [AesBlockX2 B X2] [LawfulVec X2] [LawfulX2 X2]

theorem x2_surj (t : X2) : ∃ a b : B, t = AesBlockX2.from_pair (a, b) :=
  ⟨ofB (slice (view t) 0 16 (by omega)), ofB (slice (view t) 16 16 (by omega)), view_inj (by
    rw [LawfulX2.view_from_pair, LawfulVec.view_ofB, LawfulVec.view_ofB]
    exact (append_slices (h := 16) (view t)).symm)⟩

theorem lanes_x2 : Lanes (AesBlockX2.from_pair : B × B → X2) where
  surj := x2_surj
  xor a b c d := view_inj (by
    rw [LawfulVec.view_xor, LawfulX2.view_from_pair, LawfulX2.view_from_pair, LawfulX2.view_from_pair,
      LawfulVec.view_xor, LawfulVec.view_xor]
    exact (zipWith_append' _ _ _ _ _).symm)
  enc := LawfulX2.enc_eq
  dec := LawfulX2.dec_eq
  enc_last := LawfulX2.enc_last_eq
  dec_last := LawfulX2.dec_last_eq
  pre := LawfulX2.pre_lanes

theorem from_pair_to_pair (t : X2) : AesBlockX2.from_pair (AesBlockX2.to_pair t) = t := by
  obtain ⟨a, b, rfl⟩ := x2_surj t
  rw [LawfulX2.to_pair_from_pair]

instance [LawfulPre B] : LawfulPre X2 := lanes_x2.lawfulPre
end x2

section x4
variable {B X2 X4 : Type} [AesBlock B] [LawfulVec B] [AesBlockX2 B X2] [LawfulVec X2]
  [AesBlockX4 B X2 X4] [LawfulVec X4] [LawfulX4 X4]

theorem x4_surj (t : X4) : ∃ a b : X2, t = AesBlockX4.from_x2_pair (a, b) :=
  ⟨ofB (slice (view t) 0 32 (by omega)), ofB (slice (view t) 32 32 (by omega)), view_inj (by
    rw [LawfulX4.view_from_x2_pair, LawfulVec.view_ofB, LawfulVec.view_ofB]
    exact (append_slices (h := 32) (view t)).symm)⟩

theorem lanes_x4 : Lanes (AesBlockX4.from_x2_pair : X2 × X2 → X4) where
  surj := x4_surj
  xor a b c d := view_inj (by
    rw [LawfulVec.view_xor, LawfulX4.view_from_x2_pair, LawfulX4.view_from_x2_pair, LawfulX4.view_from_x2_pair,
      LawfulVec.view_xor, LawfulVec.view_xor]
    exact (zipWith_append' _ _ _ _ _).symm)
  enc := LawfulX4.enc_eq
  dec := LawfulX4.dec_eq
  enc_last := LawfulX4.enc_last_eq
  dec_last := LawfulX4.dec_last_eq
  pre := LawfulX4.pre_lanes

theorem from_x2_pair_to_x2_pair (t : X4) : AesBlockX4.from_x2_pair (AesBlockX4.to_x2_pair t) = t := by
  obtain ⟨a, b, rfl⟩ := x4_surj t
  rw [LawfulX4.to_x2_pair_from_x2_pair]

instance [LawfulPre X2] : LawfulPre X4 := lanes_x4.lawfulPre

variable [LawfulX2 X2]
theorem from_quad_to_quad (t : X4) : AesBlockX4.from_quad (AesBlockX4.to_quad t) = t := by
  obtain ⟨x, y, rfl⟩ := x4_surj t
  obtain ⟨a, b, rfl⟩ := x2_surj x
  obtain ⟨c, d, rfl⟩ := x2_surj y
  rw [← LawfulX4.from_quad_eq, LawfulX4.to_quad_from_quad]

theorem view_from_quad (a b c d : B) : view (AesBlockX4.from_quad (a, b, c, d) : X4) =
    ((view a ++ view b) ++ (view c ++ view d) : Bytes (32 + 32)) := by
  rw [LawfulX4.from_quad_eq, LawfulX4.view_from_x2_pair, LawfulX2.view_from_pair, LawfulX2.view_from_pair]
end x4

/-! ### round-key conversion -/
section keys
variable {B : Type} [AesBlock B]

theorem foldlM_upd {N : Nat} {α : Type} (g : Nat → M α) (f : Nat → α) (hi : Nat) (hN : hi ≤ N)
    (hg : ∀ i, i < N → g i = .ok (f i)) (k : Nat) : ∀ (lo : Nat) (v : Vector α N), lo + k = hi →
    (List.range' lo k 1).foldlM (fun v i => do upd v i (← g i)) v =
      (.ok (Vector.ofFn fun i : Fin N => if lo ≤ i.val ∧ i.val < hi then f i.val else v[i.val]) : M (Vector α N)) := by
  induction k with
  | zero =>
    intro lo v h
    simp only [List.range'_zero, List.foldlM_nil, pure_ok]
    refine congrArg Except.ok ?_
    apply Vector.ext; intro i hi'
    rw [Vector.getElem_ofFn, if_neg (by simp only; omega)]
  | succ k ih =>
    intro lo v h
    rw [List.range'_succ, List.foldlM_cons, hg lo (by omega), bind_ok, upd_ok _ _ _ (by omega), bind_ok,
      ih (lo + 1) _ (by omega)]
    refine congrArg Except.ok ?_
    apply Vector.ext; intro i hi'
    simp only [Vector.getElem_ofFn]
    by_cases h1 : lo = i
    · subst h1
      rw [if_neg (by omega), if_pos (by omega), Vector.getElem_set_self]
    · rw [Vector.getElem_set_ne _ _ (by omega)]
      by_cases h2 : lo + 1 ≤ i ∧ i < hi
      · rw [if_pos h2, if_pos (by omega)]
      · rw [if_neg h2, if_neg (by omega)]

/-- Both conversions: reverse, and apply `g` to the inner ones. -/
theorem revKeys_ok (g : B → B) {nr : Nat} (hnr : 0 < nr) (rk : Vector B (nr + 1)) :
    (do
      let v : Vector B (nr + 1) := Vector.replicate (nr + 1) AesVec.zero
      let v ← upd v 0 (← idx rk (nr + 1 - 1))
      let v ← (rangeStep 1 (nr + 1 - 1) 1).foldlM (fun v i => do
        upd v i (g (← idx rk (nr + 1 - 1 - i)))) v
      upd v (nr + 1 - 1) (← idx rk 0) : M (Vector B (nr + 1))) =
    .ok (Vector.ofFn fun i : Fin (nr + 1) =>
      if i.val = 0 ∨ i.val = nr then rk[nr - i.val] else g (rk[nr - i.val])) := by
  simp only [Nat.add_sub_cancel]
  rw [idx_ok _ _ (by omega), bind_ok, upd_ok _ _ _ (by omega), bind_ok]
  have hr : rangeStep 1 nr 1 = List.range' 1 (nr - 1) 1 := by
    unfold rangeStep; simp
  rw [hr]
  have hb : (fun (v : Vector B (nr + 1)) (i : Nat) => (idx rk (nr - i) >>= fun x => upd v i (g x) : M (Vector B (nr + 1)))) =
      fun v i => ((idx rk (nr - i) >>= fun x => (pure (g x) : M B)) >>= fun y => upd v i y) := by
    funext v i; rw [bind_assoc]; rfl
  rw [hb, foldlM_upd (N := nr + 1) (fun i => do pure (g (← idx rk (nr - i)))) (fun i => g (rk[nr - i]'(by omega))) nr (by omega)
    (fun i _ => by rw [idx_ok _ _ (by omega)]; rfl) _ _ _ (by omega), bind_ok, idx_ok _ _ (by omega), bind_ok, upd_ok _ _ _ (by omega)]
  refine congrArg Except.ok ?_
  apply Vector.ext; intro i hi
  simp only [Vector.getElem_ofFn]
  by_cases h1 : i = nr
  · subst h1
    rw [Vector.getElem_set_self, if_pos (by omega)]
    simp only [Nat.sub_self]
  · rw [Vector.getElem_set_ne _ _ (by omega), Vector.getElem_ofFn]
    simp only
    by_cases h0 : i = 0
    · subst h0
      rw [if_neg (by omega), if_pos (by omega), Vector.getElem_set_self]
      simp only [Nat.sub_zero]
    · rw [if_pos (by omega), if_neg (by omega)]

theorem dec_round_keys_ok {nr : Nat} (hnr : 0 < nr) (rk : Vector B (nr + 1)) : dec_round_keys rk =
    .ok (Vector.ofFn fun i : Fin (nr + 1) =>
      if i.val = 0 ∨ i.val = nr then rk[nr - i.val] else AesBlock.imc (rk[nr - i.val])) :=
  revKeys_ok AesBlock.imc hnr rk
theorem enc_round_keys_ok {nr : Nat} (hnr : 0 < nr) (rk : Vector B (nr + 1)) : enc_round_keys rk =
    .ok (Vector.ofFn fun i : Fin (nr + 1) =>
      if i.val = 0 ∨ i.val = nr then rk[nr - i.val] else AesBlock.mc (rk[nr - i.val])) :=
  revKeys_ok AesBlock.mc hnr rk

end keys
end Aes
