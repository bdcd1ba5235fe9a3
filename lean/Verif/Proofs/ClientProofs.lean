import Verif.Spec.Reference
import Verif.Proofs.EndToEnd
import Verif.Proofs.FmtText
import Verif.Properties.Fmt
/-! The crate refines the reference, call by call. -/
namespace Aes.Client
open Rust AesSpec Fips197 Target TextSpec Fmt

/-! ### parts and blocks of byte strings -/

theorem getElem_part {n : Nat} (v : Bytes n) (i k j : Nat) (hj : j < k) (h : i + j < n) : (part v i k)[j] = v[i + j] := by
  simp only [part, Vector.getElem_ofFn]
  rw [List.getD_eq_getElem?_getD, Vector.getElem?_toList, Vector.getElem?_eq_getElem h, Option.getD_some]
theorem part_all {n : Nat} (v : Bytes n) : part v 0 n = v := by
  apply Vector.ext; intro i hi
  rw [getElem_part _ _ _ _ _ (by omega)]; simp only [Nat.zero_add]
theorem part_left {h k : Nat} (a : Bytes h) (b : Bytes k) (i m : Nat) (hi : i + m ≤ h) : part (a ++ b) i m = part a i m := by
  apply Vector.ext; intro j hj
  rw [getElem_part _ _ _ _ _ (by omega), getElem_part _ _ _ _ _ (by omega), Vector.getElem_append_left]
theorem part_right {h k : Nat} (a : Bytes h) (b : Bytes k) (i m : Nat) (hi : h ≤ i) (hm : i + m ≤ h + k) :
    part (a ++ b) i m = part b (i - h) m := by
  apply Vector.ext; intro j hj
  rw [getElem_part _ _ _ _ _ (by omega), getElem_part _ _ _ _ _ (by omega), Vector.getElem_append_right _ (by omega)]
  congr 1; omega
theorem part_parts {n : Nat} (v : Bytes n) (i m j l : Nat) (h : j + l ≤ m) (hm : i + m ≤ n) :
    part (part v i m) j l = part v (i + j) l := by
  apply Vector.ext; intro q hq
  rw [getElem_part _ _ _ _ _ (by omega), getElem_part _ _ _ _ _ (by omega), getElem_part _ _ _ _ _ (by omega)]
  congr 1; omega
theorem append_parts {h k : Nat} (v : Bytes (h + k)) : part v 0 h ++ part v h k = v := by
  apply Vector.ext; intro i hi
  by_cases hh : i < h
  · rw [Vector.getElem_append_left hh, getElem_part _ _ _ _ _ (by omega)]; simp only [Nat.zero_add]
  · rw [Vector.getElem_append_right _ (by omega), getElem_part _ _ _ _ (by omega) (by omega)]; congr 1; omega

theorem eachBlock_one (f : Bytes 16 → Bytes 16) (v : Bytes 16) : eachBlock f v = f v := by
  apply Vector.ext; intro i hi
  simp only [eachBlock, Vector.getElem_ofFn]
  have h0 : i / 16 * 16 = 0 := by omega
  have h1 : i % 16 = i := by omega
  simp only [h0, h1, part_all]
theorem eachBlock2_one (f : Bytes 16 → Bytes 16 → Bytes 16) (v u : Bytes 16) : eachBlock2 f v u = f v u := by
  apply Vector.ext; intro i hi
  simp only [eachBlock2, Vector.getElem_ofFn]
  have h0 : i / 16 * 16 = 0 := by omega
  have h1 : i % 16 = i := by omega
  simp only [h0, h1, part_all]
theorem eachBlock_append (f : Bytes 16 → Bytes 16) {m : Nat} (a b : Bytes (16 * m)) :
    eachBlock f (a ++ b) = eachBlock f a ++ eachBlock f b := by
  apply Vector.ext; intro i hi
  by_cases h : i < 16 * m
  · rw [Vector.getElem_append_left h]
    simp only [eachBlock, Vector.getElem_ofFn]
    rw [part_left _ _ _ _ (by omega)]
  · rw [Vector.getElem_append_right _ (by omega)]
    simp only [eachBlock, Vector.getElem_ofFn]
    rw [part_right _ _ _ _ (by omega) (by omega)]
    have h1 : i / 16 * 16 - 16 * m = (i - 16 * m) / 16 * 16 := by omega
    have h2 : i % 16 = (i - 16 * m) % 16 := by omega
    simp only [h1, h2]
theorem eachBlock2_append (f : Bytes 16 → Bytes 16 → Bytes 16) {m : Nat} (a b c d : Bytes (16 * m)) :
    eachBlock2 f (a ++ b) (c ++ d) = eachBlock2 f a c ++ eachBlock2 f b d := by
  apply Vector.ext; intro i hi
  by_cases h : i < 16 * m
  · rw [Vector.getElem_append_left h]
    simp only [eachBlock2, Vector.getElem_ofFn]
    rw [part_left _ _ _ _ (by omega), part_left _ _ _ _ (by omega)]
  · rw [Vector.getElem_append_right _ (by omega)]
    simp only [eachBlock2, Vector.getElem_ofFn]
    rw [part_right _ _ _ _ (by omega) (by omega), part_right _ _ _ _ (by omega) (by omega)]
    have h1 : i / 16 * 16 - 16 * m = (i - 16 * m) / 16 * 16 := by omega
    have h2 : i % 16 = (i - 16 * m) % 16 := by omega
    simp only [h1, h2]

/-! ### rounds -/
section
variable {B X2 X4 : Type} [AesBlock B] [LawfulVec B] [AesBlockX2 B X2] [LawfulVec X2] [LawfulX2 X2]
  [AesBlockX4 B X2 X4] [LawfulVec X4] [LawfulX4 X4]

theorem view_round2 {r2 : X2 → X2 → X2} {r : B → B → B} {f : Bytes 16 → Bytes 16 → Bytes 16}
    (hl : ∀ a b c d, r2 (AesBlockX2.from_pair (a, b)) (AesBlockX2.from_pair (c, d)) = AesBlockX2.from_pair (r a c, r b d))
    (hr : ∀ a k, view (r a k) = f (view a) (view k)) (x y : X2) : view (r2 x y) = eachBlock2 f (view x) (view y) := by
  obtain ⟨a, b, rfl⟩ := x2_surj x
  obtain ⟨c, d, rfl⟩ := x2_surj y
  rw [hl, LawfulX2.view_from_pair, LawfulX2.view_from_pair, LawfulX2.view_from_pair, hr, hr]
  rw [← eachBlock2_one f, ← eachBlock2_one f]
  exact (eachBlock2_append (m := 1) f _ _ _ _).symm
omit [LawfulX2 X2] in
theorem view_round4 {r4 : X4 → X4 → X4} {r2 : X2 → X2 → X2} {f : Bytes 16 → Bytes 16 → Bytes 16}
    (hl : ∀ a b c d, r4 (AesBlockX4.from_x2_pair (a, b)) (AesBlockX4.from_x2_pair (c, d)) = AesBlockX4.from_x2_pair (r2 a c, r2 b d))
    (hr : ∀ a k, view (r2 a k) = eachBlock2 f (view a) (view k)) (x y : X4) :
    view (r4 x y) = eachBlock2 f (view x) (view y) := by
  obtain ⟨a, b, rfl⟩ := x4_surj x
  obtain ⟨c, d, rfl⟩ := x4_surj y
  rw [hl, LawfulX4.view_from_x2_pair, LawfulX4.view_from_x2_pair, LawfulX4.view_from_x2_pair, hr, hr]
  exact (eachBlock2_append (m := 2) f _ _ _ _).symm
end

variable (t : Target)

theorem view_enc_w (w : Width) (x y : t.Vec w) : view (AesVec.enc x y) = eachBlock2 encRound (view x) (view y) := by
  cases w
  · exact (LawfulEnc.view_enc (B := t.Block) x y).trans (eachBlock2_one _ _ _).symm
  · exact view_round2 (X2 := t.X2) LawfulX2.enc_eq LawfulEnc.view_enc x y
  · exact view_round4 (X4 := t.X4) LawfulX4.enc_eq (view_round2 (X2 := t.X2) LawfulX2.enc_eq LawfulEnc.view_enc) x y
theorem view_enc_last_w (w : Width) (x y : t.Vec w) : view (AesVec.enc_last x y) = eachBlock2 encLastRound (view x) (view y) := by
  cases w
  · exact (LawfulEnc.view_enc_last (B := t.Block) x y).trans (eachBlock2_one _ _ _).symm
  · exact view_round2 (X2 := t.X2) LawfulX2.enc_last_eq LawfulEnc.view_enc_last x y
  · exact view_round4 (X4 := t.X4) LawfulX4.enc_last_eq (view_round2 (X2 := t.X2) LawfulX2.enc_last_eq LawfulEnc.view_enc_last) x y
theorem view_dec_w [LawfulDec t.Block] (w : Width) (x y : t.Vec w) : view (AesVec.dec x y) = eachBlock2 decRound (view x) (view y) := by
  cases w
  · exact (LawfulDec.view_dec (B := t.Block) x y).trans (eachBlock2_one _ _ _).symm
  · exact view_round2 (X2 := t.X2) LawfulX2.dec_eq LawfulDec.view_dec x y
  · exact view_round4 (X4 := t.X4) LawfulX4.dec_eq (view_round2 (X2 := t.X2) LawfulX2.dec_eq LawfulDec.view_dec) x y
theorem view_dec_last_w [LawfulDec t.Block] (w : Width) (x y : t.Vec w) : view (AesVec.dec_last x y) = eachBlock2 decLastRound (view x) (view y) := by
  cases w
  · exact (LawfulDec.view_dec_last (B := t.Block) x y).trans (eachBlock2_one _ _ _).symm
  · exact view_round2 (X2 := t.X2) LawfulX2.dec_last_eq LawfulDec.view_dec_last x y
  · exact view_round4 (X4 := t.X4) LawfulX4.dec_last_eq (view_round2 (X2 := t.X2) LawfulX2.dec_last_eq LawfulDec.view_dec_last) x y

/-! ### encryption and decryption -/

theorem encrypt_w {nr : Nat} (e : AesEnc t.Block nr) (f : Bytes 16 → Bytes 16)
    (h : ∀ p, e.encrypt_block p = .ok (ofB (f (view p)))) (w : Width) (x : t.Vec w) :
    encryptOf t e w x = .ok (ofB (eachBlock f (view x))) := by
  have h2 : ∀ x : t.X2, e.encrypt_2_blocks x = .ok (ofB (eachBlock f (view x))) := by
    intro x
    obtain ⟨a, b, rfl⟩ := x2_surj (X2 := t.X2) x
    rw [encrypt_2_blocks_ok, h, h, bind_ok, bind_ok, pure_ok]
    refine congrArg Except.ok (view_inj ?_)
    rw [LawfulX2.view_from_pair, LawfulVec.view_ofB, LawfulVec.view_ofB, LawfulVec.view_ofB, LawfulX2.view_from_pair,
      ← eachBlock_one f, ← eachBlock_one f]
    exact (eachBlock_append (m := 1) f _ _).symm
  have h1 : ∀ x : t.Block, e.encrypt_block x = .ok (ofB (eachBlock f (view x))) := by
    intro x; rw [h, eachBlock_one]
  have h4 : ∀ x : t.X4, e.encrypt_4_blocks x = .ok (ofB (eachBlock f (view x))) := by
    intro x
    obtain ⟨a, b, rfl⟩ := x4_surj (X4 := t.X4) x
    rw [encrypt_4_blocks_ok2, h2, h2, bind_ok, bind_ok, pure_ok]
    refine congrArg Except.ok (view_inj ?_)
    rw [LawfulX4.view_from_x2_pair, LawfulVec.view_ofB, LawfulVec.view_ofB, LawfulVec.view_ofB, LawfulX4.view_from_x2_pair]
    exact (eachBlock_append (m := 2) f _ _).symm
  cases w
  · exact h1 x
  · exact h2 x
  · exact h4 x
theorem decrypt_w {nr : Nat} (e : AesDec t.Block nr) (f : Bytes 16 → Bytes 16)
    (h : ∀ p, e.decrypt_block p = .ok (ofB (f (view p)))) (w : Width) (x : t.Vec w) :
    decryptOf t e w x = .ok (ofB (eachBlock f (view x))) := by
  have h2 : ∀ x : t.X2, e.decrypt_2_blocks x = .ok (ofB (eachBlock f (view x))) := by
    intro x
    obtain ⟨a, b, rfl⟩ := x2_surj (X2 := t.X2) x
    rw [decrypt_2_blocks_ok, h, h, bind_ok, bind_ok, pure_ok]
    refine congrArg Except.ok (view_inj ?_)
    rw [LawfulX2.view_from_pair, LawfulVec.view_ofB, LawfulVec.view_ofB, LawfulVec.view_ofB, LawfulX2.view_from_pair,
      ← eachBlock_one f, ← eachBlock_one f]
    exact (eachBlock_append (m := 1) f _ _).symm
  have h1 : ∀ x : t.Block, e.decrypt_block x = .ok (ofB (eachBlock f (view x))) := by
    intro x; rw [h, eachBlock_one]
  have h4 : ∀ x : t.X4, e.decrypt_4_blocks x = .ok (ofB (eachBlock f (view x))) := by
    intro x
    obtain ⟨a, b, rfl⟩ := x4_surj (X4 := t.X4) x
    rw [decrypt_4_blocks_ok2, h2, h2, bind_ok, bind_ok, pure_ok]
    refine congrArg Except.ok (view_inj ?_)
    rw [LawfulX4.view_from_x2_pair, LawfulVec.view_ofB, LawfulVec.view_ofB, LawfulVec.view_ofB, LawfulX4.view_from_x2_pair]
    exact (eachBlock_append (m := 2) f _ _).symm
  cases w
  · exact h1 x
  · exact h2 x
  · exact h4 x

/-! ### values of the reference as values of the crate -/

/-- The key schedule of a target. -/
def tsched (k : KeySize) (key : Bytes k.bytes) : Nat → Word := keyExpansionWith (t.temp k.words) k.words key

/-- The value of the crate that stands for a value of the reference. -/
def conc (sched : (k : KeySize) → Bytes k.bytes → Nat → Word) : Val (reference sched) → Val (crate t)
  | .vec w b => .vec w (ofB (T := t.Vec w) b)
  | .enc k key => .enc k ⟨rkVec t.Block k.rounds (sched k key)⟩
  | .dec k key => .dec k ⟨decKeys (rkVec t.Block k.rounds (sched k key))⟩

variable {t} {sched : (k : KeySize) → Bytes k.bytes → Nat → Word}

theorem vec?_conc (s : Store (reference sched)) (w : Width) (i : Nat) :
    Store.vec? (I := crate t) (s.map (conc t sched)) w i = (Store.vec? s w i).map fun b => ofB (T := t.Vec w) b := by
  unfold Store.vec?
  rw [List.getElem?_map]
  cases s[i]? with
  | none => rfl
  | some v =>
    cases v with
    | vec w' b =>
      by_cases h : w' = w
      · subst h
        simp only [Option.map_some, conc, dif_pos]; rfl
      · simp only [Option.map_some, conc, dif_neg h]; rfl
    | enc => rfl
    | dec => rfl
theorem enc?_conc (s : Store (reference sched)) (k : KeySize) (i : Nat) :
    Store.enc? (I := crate t) (s.map (conc t sched)) k i = (Store.enc? s k i).map fun key => ⟨rkVec t.Block k.rounds (sched k key)⟩ := by
  unfold Store.enc?
  rw [List.getElem?_map]
  cases s[i]? with
  | none => rfl
  | some v =>
    cases v with
    | enc w' b =>
      by_cases h : w' = k
      · subst h
        simp only [Option.map_some, conc, dif_pos]; rfl
      · simp only [Option.map_some, conc, dif_neg h]; rfl
    | vec => rfl
    | dec => rfl
theorem dec?_conc (s : Store (reference sched)) (k : KeySize) (i : Nat) :
    Store.dec? (I := crate t) (s.map (conc t sched)) k i =
      (Store.dec? s k i).map fun key => ⟨decKeys (rkVec t.Block k.rounds (sched k key))⟩ := by
  unfold Store.dec?
  rw [List.getElem?_map]
  cases s[i]? with
  | none => rfl
  | some v =>
    cases v with
    | dec w' b =>
      by_cases h : w' = k
      · subst h
        simp only [Option.map_some, conc, dif_pos]; rfl
      · simp only [Option.map_some, conc, dif_neg h]; rfl
    | vec => rfl
    | enc => rfl
theorem vecs?_conc (s : Store (reference sched)) (w : Width) (l : List Nat) :
    Store.vecs? (I := crate t) (s.map (conc t sched)) w l = (Store.vecs? s w l).map (List.map fun b => ofB (T := t.Vec w) b) := by
  induction l with
  | nil => rfl
  | cons i l ih =>
    unfold Store.vecs?
    rw [vec?_conc, ih]
    cases Store.vec? s w i <;> cases Store.vecs? s w l <;> rfl

/-- Both sides after a call. -/
def concR (r : Obs × Store (reference sched)) : Obs × Store (crate t) := (r.1, r.2.map (conc t sched))

theorem need_conc {α β : Type} (s : Store (reference sched)) (a : Option α) (g : α → β)
    (f : β → Obs × Store (crate t)) (f' : α → Obs × Store (reference sched)) (h : ∀ x, f (g x) = concR (f' x)) :
    need (I := crate t) (s.map (conc t sched)) (a.map g) f = concR (need s a f') := by
  cases a with
  | none => rfl
  | some x => exact h x
theorem retM_conc {α β : Type} (s : Store (reference sched)) (m : M α) (m' : M β) (v : α → List (Val (crate t)))
    (v' : β → List (Val (reference sched))) (g : β → α) (hm : m = m'.map g) (h : ∀ x, v (g x) = (v' x).map (conc t sched)) :
    retM (I := crate t) (s.map (conc t sched)) m v = concR (retM s m' v') := by
  subst hm
  cases m' with
  | error => rfl
  | ok x => simp only [retM, Except.map, concR, List.map_append, h]
theorem seeM_conc {α β : Type} (s : Store (reference sched)) (m : M α) (m' : M β) (v : α → Obs) (v' : β → Obs)
    (h : (m.map v : M Obs) = m'.map v') :
    seeM (I := crate t) (s.map (conc t sched)) m v = concR (seeM s m' v') := by
  cases m with
  | error => cases m' with
    | error => cases h; rfl
    | ok x => cases h
  | ok x => cases m' with
    | error => cases h
    | ok y => have := Except.ok.inj h; simp only [seeM, concR, this]
theorem ret_conc (s : Store (reference sched)) (v : List (Val (crate t))) (v' : List (Val (reference sched)))
    (h : v = v'.map (conc t sched)) : ret (I := crate t) (s.map (conc t sched)) v = concR (ret s v') := by
  simp only [ret, concR, List.map_append, h]

/-! ### the operations on concrete values -/

theorem into_bytes_ofB (w : Width) (b : Bytes w.size) : into_bytes (ofB b : t.Vec w) = .ok b := by
  rw [into_bytes_eq, LawfulVec.view_ofB]
theorem eq_ofB_of_view {T : Type} {n : Nat} [AesVec T n] [LawfulVec T] {x : T} {b : Bytes n} (h : view x = b) : x = ofB b := by
  rw [← h, LawfulVec.ofB_view]

theorem try_from_conc (w : Width) (s : List U8) : (Aes.try_from s : M (Except Nat (t.Vec w))) =
    .ok (if w.size ≤ s.length then .ok (ofB (Vector.ofFn fun i => s.getD i.val 0#8)) else .error s.length) := by
  unfold Aes.try_from try_from_slice array_from_slice rawRead
  by_cases h : w.size ≤ s.length
  · rw [if_pos h, if_pos h, dif_pos (by omega), bind_ok, LawfulVec.from_bytes_eq, bind_ok]
    refine congrArg (fun v => Except.ok (Except.ok (ofB v))) ?_
    apply Vector.ext; intro i hi
    simp only [Vector.getElem_ofFn, Vector.getElem_mk, List.getElem_toArray, List.getElem_take, List.drop_zero]
    rw [List.getD_eq_getElem?_getD, List.getElem?_eq_getElem (by omega), Option.getD_some]
  · rw [if_neg (by omega), if_neg h]; rfl
theorem retTry_conc (s : Store (reference sched)) (w : Width) (b : List U8) :
    retTry (I := crate t) (s.map (conc t sched)) ((crate t).try_from w b) = concR (retTry s ((reference sched).try_from w b)) := by
  have h : (crate t).try_from w b = _ := try_from_conc (t := t) w b
  rw [h]
  simp only [reference]
  by_cases hl : w.size ≤ b.length
  · simp only [if_pos hl, retTry, concR]
    refine congrArg (Prod.mk Obs.done) ?_
    exact (List.map_append (f := conc t sched) (l₁ := s)
      (l₂ := [Val.vec (I := reference sched) w (Vector.ofFn fun i => b.getD i.val 0#8)])).symm
  · simp only [if_neg hl, retTry, concR]; rfl

theorem store_to_conc (w : Width) (b : Bytes w.size) (dst : List U8) : AesVec.store_to (ofB b : t.Vec w) dst =
    if w.size ≤ dst.length then .ok (b.toList ++ dst.drop w.size) else .error .panic := by
  by_cases h : w.size ≤ dst.length
  · rw [if_pos h, LawfulVec.store_to_ok _ _ h, LawfulVec.view_ofB]
  · rw [if_neg h, LawfulVec.store_to_short _ _ (by omega)]

/-- The binary operations that are right on every target. -/
def BinOp.everywhere : BinOp → Bool
  | .dec | .decLast => false
  | _ => true

theorem bin_conc (w : Width) (op : BinOp) (h : t ≠ .riscv32 ∨ op.everywhere = true) (a b : Bytes w.size) :
    (binOf op (ofB a) (ofB b) : t.Vec w) = ofB (refBin op a b) := by
  apply eq_ofB_of_view
  cases op with
  | and => exact (LawfulVec.view_and _ _).trans (by rw [LawfulVec.view_ofB, LawfulVec.view_ofB]; rfl)
  | or => exact (LawfulVec.view_or _ _).trans (by rw [LawfulVec.view_ofB, LawfulVec.view_ofB]; rfl)
  | xor => exact (LawfulVec.view_xor _ _).trans (by rw [LawfulVec.view_ofB, LawfulVec.view_ofB]; rfl)
  | enc => exact (view_enc_w t w _ _).trans (by rw [LawfulVec.view_ofB, LawfulVec.view_ofB]; rfl)
  | encLast => exact (view_enc_last_w t w _ _).trans (by rw [LawfulVec.view_ofB, LawfulVec.view_ofB]; rfl)
  | dec =>
    have := t.lawfulDec (h.resolve_right (by decide))
    exact (view_dec_w t w _ _).trans (by rw [LawfulVec.view_ofB, LawfulVec.view_ofB]; rfl)
  | decLast =>
    have := t.lawfulDec (h.resolve_right (by decide))
    exact (view_dec_last_w t w _ _).trans (by rw [LawfulVec.view_ofB, LawfulVec.view_ofB]; rfl)
theorem assign_conc (w : Width) (op : AssignOp) (a b : Bytes w.size) :
    (assignOf op (ofB a) (ofB b) : t.Vec w) = ofB (refAssign op a b) := by
  cases op
  · exact bin_conc w .and (.inr rfl) a b
  · exact bin_conc w .or (.inr rfl) a b
  · exact bin_conc w .xor (.inr rfl) a b

theorem foldl_conc (w : Width) (r : t.Vec w → t.Vec w → t.Vec w) (f : Bytes w.size → Bytes w.size → Bytes w.size)
    (h : ∀ x y, view (r x y) = f (view x) (view y)) (ks : List (Bytes w.size)) : ∀ x : Bytes w.size,
    (ks.map fun b => ofB (T := t.Vec w) b).foldl r (ofB x) = ofB (ks.foldl f x) := by
  induction ks with
  | nil => intro x; rfl
  | cons k ks ih =>
    intro x
    rw [List.map_cons, List.foldl_cons, List.foldl_cons, ← ih]
    congr 1
    exact eq_ofB_of_view (by rw [h, LawfulVec.view_ofB, LawfulVec.view_ofB])

theorem chain_enc_conc (ht : t ≠ .riscv32) (w : Width) (x : Bytes w.size) (ks : List (Bytes w.size)) :
    Aes.chain_enc (ofB x : t.Vec w) (ks.map fun b => ofB b) = (refChain (eachBlock2 encRound) x ks).map ofB := by
  have := t.lawfulPreVec ht w
  cases ks with
  | nil => exact chain_enc_nil _
  | cons k ks =>
    rw [List.map_cons, chain_enc_cons, show AesVec.bitxor (ofB x : t.Vec w) (ofB k) = ofB (xorB x k) from
      bin_conc w .xor (.inr rfl) x k, foldl_conc w _ _ (view_enc_w t w)]
    rfl
theorem chain_dec_conc (ht : t ≠ .riscv32) (w : Width) (x : Bytes w.size) (ks : List (Bytes w.size)) :
    Aes.chain_dec (ofB x : t.Vec w) (ks.map fun b => ofB b) = (refChain (eachBlock2 decRound) x ks).map ofB := by
  have := t.lawfulPreVec ht w
  have := t.lawfulDec ht
  cases ks with
  | nil => exact chain_dec_nil _
  | cons k ks =>
    rw [List.map_cons, chain_dec_cons, show AesVec.bitxor (ofB x : t.Vec w) (ofB k) = ofB (xorB x k) from
      bin_conc w .xor (.inr rfl) x k, foldl_conc w _ _ (view_dec_w t w)]
    rfl

theorem from_u128_conc (n : U128) : (Aes.from_u128 n : M t.Block) =
    .ok (ofB (Vector.ofFn fun i : Fin 16 => (n >>> (8 * (15 - i.val))).setWidth 8)) := by
  unfold Aes.from_u128
  rw [LawfulVec.from_bytes_eq]
  refine congrArg (fun v => Except.ok (ofB v)) (Vector.ext fun i hi => ?_)
  simp only [toBe, Vector.getElem_reverse, getElem_toLe, Vector.getElem_ofFn, shr_setWidth]
theorem into_u128_conc (b : Bytes 16) : Aes.into_u128 (ofB b : t.Block) =
    .ok (BitVec.ofNat 128 (b.toList.foldl (fun acc x => 256 * acc + x.toNat) 0)) := by
  unfold Aes.into_u128
  rw [into_bytes_eq, bind_ok, LawfulVec.view_ofB, pure_ok]
  refine congrArg Except.ok (BitVec.eq_of_toNat_eq ?_)
  have h := beVal_toBe 16 (fromBe 128 b)
  rw [toBe_fromBe 128 b (by omega)] at h
  rw [BitVec.toNat_ofNat]
  change _ = beVal b.toList % _
  rw [h, Nat.mod_eq_of_lt (b := 256 ^ 16) (by have := (fromBe 128 b).isLt; omega), Nat.mod_eq_of_lt (BitVec.isLt _)]

theorem from_pair_conc (a b : Bytes 16) : (AesBlockX2.from_pair (ofB a, ofB b) : t.X2) = ofB (a ++ b : Bytes (16 + 16)) :=
  eq_ofB_of_view (by rw [LawfulX2.view_from_pair, LawfulVec.view_ofB, LawfulVec.view_ofB])
theorem from_x2_pair_conc (a b : Bytes 32) : (AesBlockX4.from_x2_pair (ofB a, ofB b) : t.X4) = ofB (a ++ b : Bytes (32 + 32)) :=
  eq_ofB_of_view (by rw [LawfulX4.view_from_x2_pair, LawfulVec.view_ofB, LawfulVec.view_ofB])
theorem from_quad_conc (a b c d : Bytes 16) : (AesBlockX4.from_quad (ofB a, ofB b, ofB c, ofB d) : t.X4) =
    ofB (a ++ b ++ c ++ d : Bytes (16 + 16 + 16 + 16)) := by
  rw [LawfulX4.from_quad_eq, from_pair_conc, from_pair_conc, from_x2_pair_conc]
  refine congrArg ofB ?_
  apply Vector.toList_inj.mp
  refine (Vector.toList_append).trans ?_
  refine Eq.trans ?_ Vector.toList_append.symm
  simp only [Vector.toList_append, List.append_assoc]
theorem to_pair_conc (x : Bytes 32) : AesBlockX2.to_pair (ofB x : t.X2) = (ofB (part x 0 16), ofB (part x 16 16)) := by
  have h : (ofB x : t.X2) = AesBlockX2.from_pair (ofB (part x 0 16), ofB (part x 16 16)) := by
    rw [from_pair_conc]; exact congrArg ofB (append_parts (h := 16) (k := 16) x).symm
  rw [h, LawfulX2.to_pair_from_pair]
theorem to_x2_pair_conc (x : Bytes 64) : AesBlockX4.to_x2_pair (ofB x : t.X4) = (ofB (part x 0 32), ofB (part x 32 32)) := by
  have h : (ofB x : t.X4) = AesBlockX4.from_x2_pair (ofB (part x 0 32), ofB (part x 32 32)) := by
    rw [from_x2_pair_conc]; exact congrArg ofB (append_parts (h := 32) (k := 32) x).symm
  rw [h, LawfulX4.to_x2_pair_from_x2_pair]
theorem to_quad_conc (x : Bytes 64) : AesBlockX4.to_quad (ofB x : t.X4) =
    (ofB (part x 0 16), ofB (part x 16 16), ofB (part x 32 16), ofB (part x 48 16)) := by
  have h : (ofB x : t.X4) = AesBlockX4.from_quad (ofB (part x 0 16), ofB (part x 16 16), ofB (part x 32 16), ofB (part x 48 16)) := by
    rw [from_quad_conc]
    refine congrArg ofB ?_
    apply Vector.ext; intro i hi
    rcases (by omega : i < 16 ∨ (16 ≤ i ∧ i < 32) ∨ (32 ≤ i ∧ i < 48) ∨ (48 ≤ i ∧ i < 64)) with h | h | h | h
    · rw [Vector.getElem_append_left (by omega), Vector.getElem_append_left (by omega), Vector.getElem_append_left (by omega),
        getElem_part _ _ _ _ _ (by omega)]; congr 1; omega
    · rw [Vector.getElem_append_left (by omega), Vector.getElem_append_left (by omega), Vector.getElem_append_right _ (by omega),
        getElem_part _ _ _ _ _ (by omega)]; congr 1; omega
    · rw [Vector.getElem_append_left (by omega), Vector.getElem_append_right _ (by omega),
        getElem_part _ _ _ _ _ (by omega)]; congr 1; omega
    · rw [Vector.getElem_append_right _ (by omega),
        getElem_part _ _ _ _ (by omega) (by omega)]; congr 1; omega
  rw [h, LawfulX4.to_quad_from_quad]

theorem format1_conc (st : Style) (o : Opts) (b : Bytes 16) :
    format (styleOf st (ofB b : t.Block) o) = .ok (refText o.alternate b.toList st) := by
  have hb : into_bytes (ofB b : t.Block) = .ok b := into_bytes_ofB .x1 b
  cases st with
  | display => exact emits_format (emits_debug hb o)
  | debug => exact emits_format (emits_debug hb o)
  | lowerHex => exact emits_format (emits_lowerHex hb o)
  | upperHex => exact emits_format (emits_upperHex hb o)
  | binary => exact emits_format (emits_binary hb o)
theorem tuple_text (o : Opts) (l : List (Bytes 16)) (hl : l ≠ []) :
    format (debugTuple o ((l.map fun b => (ofB b : t.Block)).map Fmt.debug)) = .ok (tupleText o.alternate (l.map (·.toList))) := by
  rw [emits_format (emits_blocks t o (l.map fun b => ofB b) (by simpa using hl))]
  simp only [List.map_map, Function.comp_def, LawfulVec.view_ofB, tupleText]
theorem format2_conc (o : Opts) (x : Bytes 32) : format (debugX2 (ofB x : t.X2) o) =
    .ok (tupleText o.alternate [(part x 0 16).toList, (part x 16 16).toList]) := by
  unfold debugX2
  rw [show AesBlockX2.to_pair (ofB x : t.X2) = _ from to_pair_conc x]
  exact tuple_text o [part x 0 16, part x 16 16] (by simp)
theorem format4_conc (o : Opts) (x : Bytes 64) : format (debugX4 (ofB x : t.X4) o) =
    .ok (tupleText o.alternate [(part x 0 16).toList, (part x 16 16).toList, (part x 32 16).toList, (part x 48 16).toList]) := by
  unfold debugX4
  rw [show AesBlockX4.to_quad (ofB x : t.X4) = _ from to_quad_conc x]
  exact tuple_text o [part x 0 16, part x 16 16, part x 32 16, part x 48 16] (by simp)

theorem rounds_cases (k : KeySize) : k.rounds = 10 ∨ k.rounds = 12 ∨ k.rounds = 14 := by cases k <;> decide
theorem rounds_pos (k : KeySize) : 0 < k.rounds := by cases k <;> decide

theorem encFrom_conc (k : KeySize) (key : Bytes k.bytes) : encFromOf t.Block k key =
    .ok ⟨rkVec t.Block k.rounds (tsched t k key)⟩ := by
  cases k
  · exact t.enc128_from key
  · exact t.enc192_from key
  · exact t.enc256_from key
theorem decFrom_conc (k : KeySize) (key : Bytes k.bytes) : decFromOf t.Block k key =
    .ok ⟨decKeys (rkVec t.Block k.rounds (tsched t k key))⟩ := by
  cases k
  · exact t.dec128_from key
  · exact t.dec192_from key
  · exact t.dec256_from key

theorem toList_rkVec (nr : Nat) (w : Nat → Word) : (rkVec t.Block nr w).toList.map (fun k => (view k).toList) =
    (List.range (nr + 1)).map fun r => (roundKeyBytes w r).toList := by
  apply List.ext_getElem
  · simp
  · intro i h1 h2
    simp [rkVec, LawfulVec.view_ofB]
theorem toList_decKeys (ht : t ≠ .riscv32) (nr : Nat) (w : Nat → Word) :
    (decKeys (rkVec t.Block nr w)).toList.map (fun k => (view k).toList) =
    (List.range (nr + 1)).map fun r => (roundKeyEIC nr w (nr - r)).toList := by
  have := t.lawfulDec ht
  apply List.ext_getElem
  · simp
  · intro i h1 h2
    simp only [List.length_map, Vector.length_toList] at h1
    simp only [List.getElem_map, Vector.getElem_toList, List.getElem_range, decKeys, Vector.getElem_ofFn, rkVec, roundKeyEIC]
    by_cases h : i = 0 ∨ i = nr
    · rw [if_pos h, if_pos (by omega), LawfulVec.view_ofB]
    · rw [if_neg h, if_neg (by omega), LawfulDec.view_imc, LawfulVec.view_ofB]
theorem formatE_conc (k : KeySize) (o : Opts) (key : Bytes k.bytes) :
    format (debugEnc (⟨rkVec t.Block k.rounds (sched k key)⟩ : AesEnc t.Block k.rounds) o) =
    .ok (cipherText o.alternate (typeName k.rounds ['E', 'n', 'c'])
      ((List.range (k.rounds + 1)).map fun r => (roundKeyBytes (sched k key) r).toList)) := by
  have h := emits_format (emits_cipher t o (encName (bitsName k.rounds)) (rkVec t.Block k.rounds (sched k key)))
  rw [toList_rkVec, (typeName_eq (rounds_cases k)).1] at h
  rw [← h, ← (typeName_eq (rounds_cases k)).1]; rfl
theorem formatD_conc (ht : t ≠ .riscv32) (k : KeySize) (o : Opts) (key : Bytes k.bytes) :
    format (debugDec (⟨decKeys (rkVec t.Block k.rounds (sched k key))⟩ : AesDec t.Block k.rounds) o) =
    .ok (cipherText o.alternate (typeName k.rounds ['D', 'e', 'c'])
      ((List.range (k.rounds + 1)).map fun r => (roundKeyEIC k.rounds (sched k key) (k.rounds - r)).toList)) := by
  have h := emits_format (emits_cipher t o (decName (bitsName k.rounds)) (decKeys (rkVec t.Block k.rounds (sched k key))))
  rw [toList_decKeys ht, (typeName_eq (rounds_cases k)).2] at h
  rw [← h, ← (typeName_eq (rounds_cases k)).2]; rfl

/-- The calls that do the same on riscv32 as elsewhere, given the key schedule. -/
def Call.everywhere : Call → Bool
  | .bin _ op _ _ => op.everywhere
  | .chain_enc .. | .chain_dec .. | .mc .. | .imc .. | .encrypter .. | .encrypt .. | .decrypt .. | .formatD .. => false
  | _ => true

/-- The calls that set up no key. -/
def Call.keyless : Call → Bool
  | .encFrom .. | .decFrom .. => false
  | _ => true

set_option maxHeartbeats 1000000 in
/-- One call on the crate is the same call on the reference. -/
theorem step_conc (s : Store (reference sched)) (c : Call) (h : t ≠ .riscv32 ∨ c.everywhere = true)
    (hk : sched = tsched t ∨ c.keyless = true) :
    step (crate t) (s.map (conc t sched)) c = concR (step (reference sched) s c) := by
  cases c with
  | clone i =>
    simp only [step, List.getElem?_map]
    exact need_conc s _ _ _ _ fun v => ret_conc s _ _ rfl
  | new w b => exact retM_conc s _ _ _ _ (fun b => ofB (T := t.Vec w) b) (LawfulVec.new_eq b) fun x => rfl
  | from_bytes w b => exact retM_conc s _ _ _ _ (fun b => ofB (T := t.Vec w) b) (LawfulVec.from_bytes_eq b) fun x => rfl
  | from_ref w b => exact retM_conc s _ _ _ _ (fun b => ofB (T := t.Vec w) b) (LawfulVec.from_bytes_eq b) fun x => rfl
  | try_from w b => exact retTry_conc s w b
  | zero w => exact ret_conc s _ _ (congrArg (fun v => [Val.vec (I := crate t) w v]) (eq_ofB_of_view (T := t.Vec w) LawfulVec.view_zero))
  | default_ w => exact ret_conc s _ _ (congrArg (fun v => [Val.vec (I := crate t) w v]) (eq_ofB_of_view (T := t.Vec w) LawfulVec.view_zero))
  | into_bytes w i =>
    simp only [step, vec?_conc]
    exact need_conc s _ _ _ _ fun b => seeM_conc s _ _ _ _ (by
      rw [show (crate t).into_bytes w (ofB (T := t.Vec w) b) = _ from into_bytes_ofB w b]; rfl)
  | store_to w i dst =>
    simp only [step, vec?_conc]
    exact need_conc s _ _ _ _ fun b => seeM_conc s _ _ _ _ (congrArg _ (store_to_conc w b dst))
  | is_zero w i =>
    simp only [step, vec?_conc]
    exact need_conc s _ _ _ _ fun b => congrArg (fun v => (Obs.bool v, s.map (conc t sched)))
      ((LawfulVec.is_zero_eq (T := t.Vec w) _).trans (by rw [LawfulVec.view_ofB]; rfl))
  | eq w i j =>
    simp only [step, vec?_conc]
    exact need_conc s _ _ _ _ fun a => need_conc s _ _ _ _ fun b => congrArg (fun v => (Obs.bool v, s.map (conc t sched)))
      ((LawfulVec.eq_eq (T := t.Vec w) _ _).trans (by rw [LawfulVec.view_ofB, LawfulVec.view_ofB]; rfl))
  | bin w op i j =>
    simp only [step, vec?_conc]
    exact need_conc s _ _ _ _ fun a => need_conc s _ _ _ _ fun b => ret_conc s _ _
      (congrArg (fun v => [Val.vec (I := crate t) w v]) (bin_conc w op h a b))
  | assign w op i j =>
    simp only [step, vec?_conc]
    refine need_conc s _ _ _ _ fun a => need_conc s _ _ _ _ fun b => ?_
    simp only [concR, List.map_set]
    exact congrArg (fun v => (Obs.done, (s.map (conc t sched)).set i (Val.vec (I := crate t) w v))) (assign_conc w op a b)
  | not w i =>
    simp only [step, vec?_conc]
    exact need_conc s _ _ _ _ fun a => ret_conc s _ _ (congrArg (fun v => [Val.vec (I := crate t) w v])
      (eq_ofB_of_view (T := t.Vec w) ((LawfulVec.view_not _).trans (by rw [LawfulVec.view_ofB]; rfl))))
  | chain_enc w i ks =>
    have ht := h.resolve_right Bool.false_ne_true
    simp only [step, vec?_conc, vecs?_conc]
    exact need_conc s _ _ _ _ fun a => need_conc s _ _ _ _ fun ks =>
      retM_conc s _ _ _ _ (fun b => ofB (T := t.Vec w) b) (chain_enc_conc ht w a ks) fun x => rfl
  | chain_dec w i ks =>
    have ht := h.resolve_right Bool.false_ne_true
    simp only [step, vec?_conc, vecs?_conc]
    exact need_conc s _ _ _ _ fun a => need_conc s _ _ _ _ fun ks =>
      retM_conc s _ _ _ _ (fun b => ofB (T := t.Vec w) b) (chain_dec_conc ht w a ks) fun x => rfl
  | mc i =>
    have := t.lawfulDec (h.resolve_right Bool.false_ne_true)
    simp only [step, vec?_conc]
    exact need_conc s _ _ _ _ fun a => ret_conc s _ _ (congrArg (fun v => [Val.vec (I := crate t) .x1 v])
      (eq_ofB_of_view (T := t.Block) ((LawfulDec.view_mc _).trans (congrArg mixCols (LawfulVec.view_ofB _)))))
  | imc i =>
    have := t.lawfulDec (h.resolve_right Bool.false_ne_true)
    simp only [step, vec?_conc]
    exact need_conc s _ _ _ _ fun a => ret_conc s _ _ (congrArg (fun v => [Val.vec (I := crate t) .x1 v])
      (eq_ofB_of_view (T := t.Block) ((LawfulDec.view_imc _).trans (congrArg invMixCols (LawfulVec.view_ofB _)))))
  | from_u128 n => exact retM_conc s _ _ _ _ (fun b => ofB (T := t.Block) b) (from_u128_conc n) fun x => rfl
  | into_u128 i =>
    simp only [step, vec?_conc]
    exact need_conc s _ _ _ _ fun b => seeM_conc s _ _ _ _ (congrArg _ (into_u128_conc b))
  | from_pair i j =>
    simp only [step, vec?_conc]
    exact need_conc s _ _ _ _ fun a => need_conc s _ _ _ _ fun b => ret_conc s _ _
      (congrArg (fun v => [Val.vec (I := crate t) .x2 v]) (from_pair_conc a b))
  | to_pair i =>
    simp only [step, vec?_conc]
    exact need_conc s _ _ _ _ fun a => ret_conc s _ _
      (congrArg (fun p : t.Block × t.Block => [Val.vec (I := crate t) .x1 p.1, .vec .x1 p.2]) (to_pair_conc a))
  | from_block2 i =>
    simp only [step, vec?_conc]
    exact need_conc s _ _ _ _ fun a => ret_conc s _ _
      (congrArg (fun v => [Val.vec (I := crate t) .x2 v]) ((LawfulX2.from_block_eq (X2 := t.X2) _).trans (from_pair_conc a a)))
  | from_quad i j k l =>
    simp only [step, vec?_conc]
    exact need_conc s _ _ _ _ fun a => need_conc s _ _ _ _ fun b => need_conc s _ _ _ _ fun c => need_conc s _ _ _ _ fun d =>
      ret_conc s _ _ (congrArg (fun v => [Val.vec (I := crate t) .x4 v]) (from_quad_conc a b c d))
  | to_quad i =>
    simp only [step, vec?_conc]
    exact need_conc s _ _ _ _ fun a => ret_conc s _ _
      (congrArg (fun p : t.Block × t.Block × t.Block × t.Block =>
        [Val.vec (I := crate t) .x1 p.1, .vec .x1 p.2.1, .vec .x1 p.2.2.1, .vec .x1 p.2.2.2]) (to_quad_conc a))
  | from_x2_pair i j =>
    simp only [step, vec?_conc]
    exact need_conc s _ _ _ _ fun a => need_conc s _ _ _ _ fun b => ret_conc s _ _
      (congrArg (fun v => [Val.vec (I := crate t) .x4 v]) (from_x2_pair_conc a b))
  | to_x2_pair i =>
    simp only [step, vec?_conc]
    exact need_conc s _ _ _ _ fun a => ret_conc s _ _
      (congrArg (fun p : t.X2 × t.X2 => [Val.vec (I := crate t) .x2 p.1, .vec .x2 p.2]) (to_x2_pair_conc a))
  | from_block4 i =>
    simp only [step, vec?_conc]
    exact need_conc s _ _ _ _ fun a => ret_conc s _ _
      (congrArg (fun v => [Val.vec (I := crate t) .x4 v]) ((LawfulX4.from_block_eq (X4 := t.X4) _).trans (from_quad_conc a a a a)))
  | from_x2 i =>
    simp only [step, vec?_conc]
    exact need_conc s _ _ _ _ fun a => ret_conc s _ _
      (congrArg (fun v => [Val.vec (I := crate t) .x4 v]) ((LawfulX4.from_x2_eq (X4 := t.X4) _).trans (from_x2_pair_conc a a)))
  | format1 st o i =>
    simp only [step, vec?_conc]
    exact need_conc s _ _ _ _ fun b => seeM_conc s _ _ _ _ (congrArg _ (format1_conc st o b))
  | format2 o i =>
    simp only [step, vec?_conc]
    exact need_conc s _ _ _ _ fun b => seeM_conc s _ _ _ _ (congrArg _ (format2_conc o b))
  | format4 o i =>
    simp only [step, vec?_conc]
    exact need_conc s _ _ _ _ fun b => seeM_conc s _ _ _ _ (congrArg _ (format4_conc o b))
  | encFrom k key =>
    have hs : sched = tsched t := hk.resolve_right Bool.false_ne_true
    subst hs
    exact retM_conc s _ _ _ _ (fun key => ⟨rkVec t.Block k.rounds (tsched t k key)⟩) (encFrom_conc k key) fun x => rfl
  | decFrom k key =>
    have hs : sched = tsched t := hk.resolve_right Bool.false_ne_true
    subst hs
    exact retM_conc s _ _ _ _ (fun key => ⟨decKeys (rkVec t.Block k.rounds (tsched t k key))⟩) (decFrom_conc k key) fun x => rfl
  | decrypter k i =>
    simp only [step, enc?_conc]
    exact need_conc s _ _ _ _ fun key => retM_conc s _ _ _ _ (fun key => ⟨decKeys (rkVec t.Block k.rounds (sched k key))⟩)
      (decrypter_ok (rounds_pos k) _) fun x => rfl
  | encrypter k i =>
    have := t.lawfulDec (h.resolve_right Bool.false_ne_true)
    simp only [step, dec?_conc]
    exact need_conc s _ _ _ _ fun key => retM_conc s _ _ _ _ (fun key => ⟨rkVec t.Block k.rounds (sched k key)⟩)
      ((encrypter_ok (rounds_pos k) _).trans (by rw [encKeys_decKeys]; rfl)) fun x => rfl
  | encrypt k w e i =>
    have := t.lawfulPre (h.resolve_right Bool.false_ne_true)
    simp only [step, enc?_conc, vec?_conc]
    exact need_conc s _ _ _ _ fun key => need_conc s _ _ _ _ fun b =>
      retM_conc s _ _ _ _ (fun b => ofB (T := t.Vec w) b)
        ((encrypt_w t _ _ (encrypt_rkVec (rounds_pos k) _) w _).trans (by rw [LawfulVec.view_ofB]; rfl)) fun x => rfl
  | decrypt k w e i =>
    have := t.lawfulPre (h.resolve_right Bool.false_ne_true)
    have := t.lawfulDec (h.resolve_right Bool.false_ne_true)
    simp only [step, dec?_conc, vec?_conc]
    exact need_conc s _ _ _ _ fun key => need_conc s _ _ _ _ fun b =>
      retM_conc s _ _ _ _ (fun b => ofB (T := t.Vec w) b)
        ((decrypt_w t _ _ (decrypt_rkVec (rounds_pos k) _) w _).trans (by rw [LawfulVec.view_ofB]; rfl)) fun x => rfl
  | formatE k o i =>
    simp only [step, enc?_conc]
    exact need_conc s _ _ _ _ fun key => seeM_conc s _ _ _ _ (congrArg _ (formatE_conc k o key))
  | formatD k o i =>
    have ht := h.resolve_right Bool.false_ne_true
    simp only [step, dec?_conc]
    exact need_conc s _ _ _ _ fun key => seeM_conc s _ _ _ _ (congrArg _ (formatD_conc ht k o key))

/-- A whole run. -/
theorem run_conc (client : Client) (h : t ≠ .riscv32 ∨ ∀ seen c, client seen = some c → c.everywhere = true)
    (hk : sched = tsched t ∨ ∀ seen c, client seen = some c → c.keyless = true) (n : Nat) :
    run (crate t) client n = ((run (reference sched) client n).1, (run (reference sched) client n).2.map (conc t sched)) := by
  induction n with
  | zero => rfl
  | succ n ih =>
    simp only [run]
    rw [ih]
    simp only []
    cases hc : client (run (reference sched) client n).1 with
    | none => rfl
    | some c =>
      simp only []
      have hs := step_conc (t := t) (run (reference sched) client n).2 c (h.imp id fun h => h _ _ hc) (hk.imp id fun h => h _ _ hc)
      rw [hs]; rfl

end Aes.Client
