import Verif.Model.Table
import Verif.Proofs.Words
/-! src/aes_table_based.rs satisfies the laws. -/
set_option linter.unusedSimpArgs false
namespace Aes.Table
open Rust AesSpec Fips197 Columns

/-! ### data -/
theorem byte0 (x : U32) : wordOf .big x 0 = (x >>> 24).setWidth 8 := by
  rw [shr_setWidth]; simp [wordOf, toNe, toBe, toLe]
theorem byte1 (x : U32) : wordOf .big x 1 = (x >>> 16).setWidth 8 := by
  rw [shr_setWidth]; simp [wordOf, toNe, toBe, toLe]
theorem byte2 (x : U32) : wordOf .big x 2 = (x >>> 8).setWidth 8 := by
  rw [shr_setWidth]; simp [wordOf, toNe, toBe, toLe]
theorem byte3 (x : U32) : wordOf .big x 3 = x.setWidth 8 := by
  have := shr_setWidth x 0
  simp only [BitVec.ushiftRight_zero] at this
  rw [this]; simp [wordOf, toNe, toBe, toLe]

theorem or_bytes (a b c d : U8) :
    (a.setWidth 32 <<< 24 ||| b.setWidth 32 <<< 16 ||| c.setWidth 32 <<< 8 ||| d.setWidth 32 : U32)
      = ofWord .big (mkW a b c d) := by
  rw [show ofWord .big (mkW a b c d) = fromLe 32 #v[d, c, b, a] by
    unfold ofWord fromNe fromBe
    refine congrArg (fromLe 32) ?_
    apply Vector.ext; intro i hi
    match i, hi with
    | 0, _ | 1, _ | 2, _ | 3, _ => simp [mkW, Vector.getElem_reverse]]
  apply BitVec.eq_of_getLsbD_eq
  intro k hk
  rw [getLsbD_fromLe 32 _ k hk (by omega)]
  simp only [BitVec.getLsbD_or, BitVec.getLsbD_shiftLeft, BitVec.getLsbD_setWidth, hk, decide_true, Bool.true_and]
  rcases (show k / 8 = 0 ∨ k / 8 = 1 ∨ k / 8 = 2 ∨ k / 8 = 3 by omega) with h | h | h | h
  · have e : k % 8 = k := by omega
    simp [h, e, show k < 24 by omega, show k < 16 by omega, show k < 8 by omega]
  · have e : k % 8 = k - 8 := by omega
    simp [h, e, show k < 24 by omega, show k < 16 by omega, show ¬ k < 8 by omega, show k - 8 < 32 by omega,
      BitVec.getLsbD_of_ge d k (by omega)]
  · have e : k % 8 = k - 16 := by omega
    simp [h, e, show k < 24 by omega, show ¬ k < 16 by omega, show ¬ k < 8 by omega, show k - 16 < 32 by omega,
      BitVec.getLsbD_of_ge d k (by omega), BitVec.getLsbD_of_ge c (k - 8) (by omega)]
  · have e : k % 8 = k - 24 := by omega
    simp [h, e, show ¬ k < 24 by omega, show ¬ k < 16 by omega, show ¬ k < 8 by omega, show k - 24 < 32 by omega,
      BitVec.getLsbD_of_ge d k (by omega), BitVec.getLsbD_of_ge c (k - 8) (by omega),
      BitVec.getLsbD_of_ge b (k - 16) (by omega)]

theorem load_ok {n : Nat} (v : Vector U8 n) (c : Nat) (h : 4 * c + 3 < n) :
    load_u32_be v.toList (4 * c) = .ok (ofWord .big (wordAt v c)) := by
  have e : wordAt v c = mkW v[4 * c] v[4 * c + 1] v[4 * c + 2] v[4 * c + 3] := by
    apply word_eq <;> rw [wordAt_eq v c h] <;> rfl
  rw [e, ← or_bytes]
  unfold load_u32_be
  rw [sidx_ok _ _ (by simp; omega), sidx_ok _ _ (by simp; omega), sidx_ok _ _ (by simp; omega), sidx_ok _ _ (by simp; omega)]
  simp only [bind_ok, pure_ok, Vector.getElem_toList, Nat.add_zero]

theorem wordAt_kw (v : Bytes 16) (c : Fin 4) : wordAt v c.val = keyWords v c := by
  funext j; rw [wordAt_eq v _ (by omega)]; rfl

def ofB' (v : Bytes 16) : Block := ⟨qw .big v 0, qw .big v 1, qw .big v 2, qw .big v 3⟩
def view' (b : Block) : Bytes 16 := qb .big b.w0 b.w1 b.w2 b.w3

theorem new_ok (v : Vector U8 16) : new v = .ok (ofB' v) := by
  unfold new
  have h0 := load_ok v 0 (by omega)
  have h1 := load_ok v 1 (by omega)
  have h2 := load_ok v 2 (by omega)
  have h3 := load_ok v 3 (by omega)
  rw [show load_u32_be v.toList 0 = _ from h0, show load_u32_be v.toList 4 = _ from h1,
    show load_u32_be v.toList 8 = _ from h2, show load_u32_be v.toList 12 = _ from h3]
  simp only [bind_ok, pure_ok, ofB', qw, ← wordAt_kw]
  rfl

theorem store_word (w : U32) (s : List U8) (h : 4 ≤ s.length) :
    store_u32_be s w = .ok ((toBe 4 w).toList ++ s.drop 4) := by
  unfold store_u32_be
  rw [supd_ok _ _ _ (by omega), bind_ok, supd_ok _ _ _ (by simp; omega), bind_ok, supd_ok _ _ _ (by simp; omega),
    bind_ok, supd_ok _ _ _ (by simp; omega)]
  refine congrArg Except.ok ?_
  obtain ⟨a, b, c, d, t, rfl⟩ : ∃ a b c d t, s = a :: b :: c :: d :: t := by
    match s, h with
    | a :: b :: c :: d :: t, _ => exact ⟨a, b, c, d, t, rfl⟩
  have e0 := byte0 w; have e1 := byte1 w; have e2 := byte2 w; have e3 := byte3 w
  simp only [wordOf, toNe] at e0 e1 e2 e3
  rw [← e0, ← e1, ← e2, ← e3]
  have : (toBe 4 w).toList = [(toBe 4 w)[0], (toBe 4 w)[1], (toBe 4 w)[2], (toBe 4 w)[3]] := by
    apply List.ext_getElem
    · simp
    · intro i h1 h2
      simp only [Vector.length_toList] at h1
      match i, h1 with
      | 0, _ | 1, _ | 2, _ | 3, _ => simp
  rw [this]; simp

theorem view'_toList (b : Block) : (view' b).toList =
    (toBe 4 b.w0).toList ++ (toBe 4 b.w1).toList ++ (toBe 4 b.w2).toList ++ (toBe 4 b.w3).toList := by
  apply List.ext_getElem
  · simp
  · intro i h1 h2
    simp only [Vector.length_toList] at h1
    simp only [Vector.getElem_toList, view', qb, Vector.getElem_ofFn, wordOf, toNe]
    rcases (show i / 4 = 0 ∨ i / 4 = 1 ∨ i / 4 = 2 ∨ i / 4 = 3 by omega) with h | h | h | h
    · simp only [h]
      rw [List.getElem_append_left (by simp; omega), List.getElem_append_left (by simp; omega),
        List.getElem_append_left (by simp; omega), Vector.getElem_toList]
      congr 1; omega
    · simp only [h]
      rw [List.getElem_append_left (by simp; omega), List.getElem_append_left (by simp; omega),
        List.getElem_append_right (by simp; omega), Vector.getElem_toList]
      congr 1; simp; omega
    · simp only [h]
      rw [List.getElem_append_left (by simp; omega), List.getElem_append_right (by simp; omega), Vector.getElem_toList]
      congr 1; simp; omega
    · simp only [h]
      rw [List.getElem_append_right (by simp; omega), Vector.getElem_toList]
      congr 1; simp; omega

theorem store_ok (t : Block) (dst : List U8) (h : 16 ≤ dst.length) :
    store_to t dst = .ok ((view' t).toList ++ dst.drop 16) := by
  have step (d : List U8) (k : Nat) (w : U32) (hk : k + 4 ≤ d.length) :
      (onFrom d k fun s => store_u32_be s w) = .ok (d.take k ++ ((toBe 4 w).toList ++ (d.drop k).drop 4)) := by
    unfold onFrom
    rw [sliceFrom_ok _ _ (by omega), bind_ok]
    simp only []
    rw [store_word _ _ (by simp; omega), bind_ok, pure_ok]
  unfold store_to
  rw [assert_ge h, bind_ok, store_word _ _ (by omega), bind_ok, step _ _ _ (by simp; omega), bind_ok,
    step _ _ _ (by simp; omega), bind_ok, step _ _ _ (by simp; omega)]
  refine congrArg Except.ok ?_
  rw [view'_toList]
  have ht (w : U32) (k : Nat) (h : 4 ≤ k) : (toBe 4 w).toList.take k = (toBe 4 w).toList :=
    List.take_of_length_le (by simp; omega)
  have hd (w : U32) (k : Nat) (h : 4 ≤ k) : (toBe 4 w).toList.drop k = [] :=
    List.drop_of_length_le (by simp; omega)
  simp [List.drop_append, List.take_append, List.drop_drop, List.take_take, ht, hd]

instance : LawfulVec Block where
  view := view'
  ofB := ofB'
  view_ofB v := qb_qw .big v
  ofB_view t := by
    obtain ⟨a, b, c, d⟩ := t
    simp only [ofB', view', qw_qb0, qw_qb1, qw_qb2, qw_qb3]
  new_eq := new_ok
  from_bytes_eq := new_ok
  store_to_ok := store_ok
  store_to_short t dst h := by
    show store_to t dst = _
    unfold store_to
    rw [assert_ge_not h]; rfl
  view_zero := qb_zero _
  is_zero_eq t := by
    show ((t.w0 ||| t.w1 ||| t.w2 ||| t.w3) == 0) = _
    rw [Bool.eq_iff_iff, beq_iff_eq, decide_eq_true_iff]
    exact (qb_eq_zero ..).symm
  eq_eq a b := by
    show decide (a = b) = _
    apply decide_eq_decide.mpr
    constructor
    · rintro rfl; rfl
    · intro h
      obtain ⟨h0, h1, h2, h3⟩ := qb_inj h
      cases a; cases b; simp_all
  view_and _ _ := qb_and ..
  view_or _ _ := qb_or ..
  view_xor _ _ := qb_xor ..
  view_not _ := qb_not ..

/-! ### tables -/
/-- Table entries as words. -/
def ent (t : Vector U32 256) (b : U8) : Word := wordOf .big (t[b.toNat]'b.isLt)

/-- The table whose entry at `b` is the word `f (l[b])`. -/
theorem ent_of_map {t : Vector U32 256} {l : List Byte} {f : Byte → Word} (hl : l.length = 256)
    (h : t.toList = l.map fun s => fromLe 32 #v[f s 3, f s 2, f s 1, f s 0]) (b : U8) :
    ent t b = f (l.getD b.toNat 0#8) := by
  have hb : b.toNat < l.length := by have := b.isLt; omega
  have hb' : b.toNat < 256 := b.isLt
  have h1 : t[b.toNat] = fromLe 32 #v[f l[b.toNat] 3, f l[b.toNat] 2, f l[b.toNat] 1, f l[b.toNat] 0] := by
    have := congrArg (fun l => l[b.toNat]?) h
    simpa [hb, hb'] using this
  have h2 : l.getD b.toNat 0#8 = l[b.toNat] := by simp [List.getD, hb]
  rw [ent, h1, h2]
  apply word_eq <;> simp [wordOf, toNe, toBe, toLe_fromLe]

theorem te0_ent (b : U8) : ent TE0 b = mkW (mul 0x02#8 (sbox b)) ((sbox b)) ((sbox b)) (mul 0x03#8 (sbox b)) := by
  simp only [sbox_eq, mul_02, mul_03, mul_0e, mul_0b, mul_0d, mul_09]
  exact ent_of_map (f := fun s => mkW (xtimes s) s s (xtimes s ^^^ s)) (l := sboxTable) (by decide +kernel) (by decide +kernel) b
theorem te1_ent (b : U8) : ent TE1 b = mkW (mul 0x03#8 (sbox b)) (mul 0x02#8 (sbox b)) ((sbox b)) ((sbox b)) := by
  simp only [sbox_eq, mul_02, mul_03, mul_0e, mul_0b, mul_0d, mul_09]
  exact ent_of_map (f := fun s => mkW (xtimes s ^^^ s) (xtimes s) s s) (l := sboxTable) (by decide +kernel) (by decide +kernel) b
theorem te2_ent (b : U8) : ent TE2 b = mkW ((sbox b)) (mul 0x03#8 (sbox b)) (mul 0x02#8 (sbox b)) ((sbox b)) := by
  simp only [sbox_eq, mul_02, mul_03, mul_0e, mul_0b, mul_0d, mul_09]
  exact ent_of_map (f := fun s => mkW s (xtimes s ^^^ s) (xtimes s) s) (l := sboxTable) (by decide +kernel) (by decide +kernel) b
theorem te3_ent (b : U8) : ent TE3 b = mkW ((sbox b)) ((sbox b)) (mul 0x03#8 (sbox b)) (mul 0x02#8 (sbox b)) := by
  simp only [sbox_eq, mul_02, mul_03, mul_0e, mul_0b, mul_0d, mul_09]
  exact ent_of_map (f := fun s => mkW s s (xtimes s ^^^ s) (xtimes s)) (l := sboxTable) (by decide +kernel) (by decide +kernel) b
theorem te4_ent (b : U8) : ent TE4 b = mkW ((sbox b)) ((sbox b)) ((sbox b)) ((sbox b)) := by
  simp only [sbox_eq, mul_02, mul_03, mul_0e, mul_0b, mul_0d, mul_09]
  exact ent_of_map (f := fun s => mkW s s s s) (l := sboxTable) (by decide +kernel) (by decide +kernel) b
theorem td0_ent (b : U8) : ent TD0 b = mkW (mul 0x0e#8 (invSbox b)) (mul 0x09#8 (invSbox b)) (mul 0x0d#8 (invSbox b)) (mul 0x0b#8 (invSbox b)) := by
  simp only [invSbox_eq, mul_02, mul_03, mul_0e, mul_0b, mul_0d, mul_09]
  exact ent_of_map (f := fun s => mkW (xtimes (xtimes (xtimes s)) ^^^ xtimes (xtimes s) ^^^ xtimes s) (xtimes (xtimes (xtimes s)) ^^^ s) (xtimes (xtimes (xtimes s)) ^^^ xtimes (xtimes s) ^^^ s) (xtimes (xtimes (xtimes s)) ^^^ xtimes s ^^^ s)) (l := invSboxTable) (by decide +kernel) (by decide +kernel) b
theorem td1_ent (b : U8) : ent TD1 b = mkW (mul 0x0b#8 (invSbox b)) (mul 0x0e#8 (invSbox b)) (mul 0x09#8 (invSbox b)) (mul 0x0d#8 (invSbox b)) := by
  simp only [invSbox_eq, mul_02, mul_03, mul_0e, mul_0b, mul_0d, mul_09]
  exact ent_of_map (f := fun s => mkW (xtimes (xtimes (xtimes s)) ^^^ xtimes s ^^^ s) (xtimes (xtimes (xtimes s)) ^^^ xtimes (xtimes s) ^^^ xtimes s) (xtimes (xtimes (xtimes s)) ^^^ s) (xtimes (xtimes (xtimes s)) ^^^ xtimes (xtimes s) ^^^ s)) (l := invSboxTable) (by decide +kernel) (by decide +kernel) b
theorem td2_ent (b : U8) : ent TD2 b = mkW (mul 0x0d#8 (invSbox b)) (mul 0x0b#8 (invSbox b)) (mul 0x0e#8 (invSbox b)) (mul 0x09#8 (invSbox b)) := by
  simp only [invSbox_eq, mul_02, mul_03, mul_0e, mul_0b, mul_0d, mul_09]
  exact ent_of_map (f := fun s => mkW (xtimes (xtimes (xtimes s)) ^^^ xtimes (xtimes s) ^^^ s) (xtimes (xtimes (xtimes s)) ^^^ xtimes s ^^^ s) (xtimes (xtimes (xtimes s)) ^^^ xtimes (xtimes s) ^^^ xtimes s) (xtimes (xtimes (xtimes s)) ^^^ s)) (l := invSboxTable) (by decide +kernel) (by decide +kernel) b
theorem td3_ent (b : U8) : ent TD3 b = mkW (mul 0x09#8 (invSbox b)) (mul 0x0d#8 (invSbox b)) (mul 0x0b#8 (invSbox b)) (mul 0x0e#8 (invSbox b)) := by
  simp only [invSbox_eq, mul_02, mul_03, mul_0e, mul_0b, mul_0d, mul_09]
  exact ent_of_map (f := fun s => mkW (xtimes (xtimes (xtimes s)) ^^^ s) (xtimes (xtimes (xtimes s)) ^^^ xtimes (xtimes s) ^^^ s) (xtimes (xtimes (xtimes s)) ^^^ xtimes s ^^^ s) (xtimes (xtimes (xtimes s)) ^^^ xtimes (xtimes s) ^^^ xtimes s)) (l := invSboxTable) (by decide +kernel) (by decide +kernel) b
theorem td4_ent (b : U8) : ent TD4 b = mkW ((invSbox b)) ((invSbox b)) ((invSbox b)) ((invSbox b)) := by
  simp only [invSbox_eq, mul_02, mul_03, mul_0e, mul_0b, mul_0d, mul_09]
  exact ent_of_map (f := fun s => mkW s s s s) (l := invSboxTable) (by decide +kernel) (by decide +kernel) b

theorem wordOf_and (a b : U32) : wordOf .big (a &&& b) = fun i => wordOf .big a i &&& wordOf .big b i := by
  funext i; simp only [wordOf, toNe_and, Vector.getElem_zipWith]
theorem wordOf_or (a b : U32) : wordOf .big (a ||| b) = fun i => wordOf .big a i ||| wordOf .big b i := by
  funext i; simp only [wordOf, toNe_or, Vector.getElem_zipWith]

theorem m0 : wordOf .big 0xff000000#32 = mkW 255#8 0 0 0 := by apply word_eq <;> decide +kernel
theorem m1 : wordOf .big 0xff0000#32 = mkW 0 255#8 0 0 := by apply word_eq <;> decide +kernel
theorem m2 : wordOf .big 0xff00#32 = mkW 0 0 255#8 0 := by apply word_eq <;> decide +kernel
theorem m3 : wordOf .big 0xff#32 = mkW 0 0 0 255#8 := by apply word_eq <;> decide +kernel
theorem and_ff (b : U8) : b &&& 255#8 = b := BitVec.and_allOnes (x := b)

section
variable (x : U32)
theorem w_te0 : wordOf .big (te0 x) = mkW (mul 0x02#8 (sbox (x.setWidth 8))) (sbox (x.setWidth 8)) (sbox (x.setWidth 8)) (mul 0x03#8 (sbox (x.setWidth 8))) := te0_ent _
theorem w_te1 : wordOf .big (te1 x) = mkW (mul 0x03#8 (sbox (x.setWidth 8))) (mul 0x02#8 (sbox (x.setWidth 8))) (sbox (x.setWidth 8)) (sbox (x.setWidth 8)) := te1_ent _
theorem w_te2 : wordOf .big (te2 x) = mkW (sbox (x.setWidth 8)) (mul 0x03#8 (sbox (x.setWidth 8))) (mul 0x02#8 (sbox (x.setWidth 8))) (sbox (x.setWidth 8)) := te2_ent _
theorem w_te3 : wordOf .big (te3 x) = mkW (sbox (x.setWidth 8)) (sbox (x.setWidth 8)) (mul 0x03#8 (sbox (x.setWidth 8))) (mul 0x02#8 (sbox (x.setWidth 8))) := te3_ent _
theorem w_td0 : wordOf .big (td0 x) = mkW (mul 0x0e#8 (invSbox (x.setWidth 8))) (mul 0x09#8 (invSbox (x.setWidth 8))) (mul 0x0d#8 (invSbox (x.setWidth 8))) (mul 0x0b#8 (invSbox (x.setWidth 8))) := td0_ent _
theorem w_td1 : wordOf .big (td1 x) = mkW (mul 0x0b#8 (invSbox (x.setWidth 8))) (mul 0x0e#8 (invSbox (x.setWidth 8))) (mul 0x09#8 (invSbox (x.setWidth 8))) (mul 0x0d#8 (invSbox (x.setWidth 8))) := td1_ent _
theorem w_td2 : wordOf .big (td2 x) = mkW (mul 0x0d#8 (invSbox (x.setWidth 8))) (mul 0x0b#8 (invSbox (x.setWidth 8))) (mul 0x0e#8 (invSbox (x.setWidth 8))) (mul 0x09#8 (invSbox (x.setWidth 8))) := td2_ent _
theorem w_td3 : wordOf .big (td3 x) = mkW (mul 0x09#8 (invSbox (x.setWidth 8))) (mul 0x0d#8 (invSbox (x.setWidth 8))) (mul 0x0b#8 (invSbox (x.setWidth 8))) (mul 0x0e#8 (invSbox (x.setWidth 8))) := td3_ent _
theorem w_te4 : wordOf .big (lookup TE4 x) = mkW (sbox (x.setWidth 8)) (sbox (x.setWidth 8)) (sbox (x.setWidth 8)) (sbox (x.setWidth 8)) := te4_ent _
theorem w_td4 : wordOf .big (lookup TD4 x) = mkW (invSbox (x.setWidth 8)) (invSbox (x.setWidth 8)) (invSbox (x.setWidth 8)) (invSbox (x.setWidth 8)) := td4_ent _
theorem w_te4_0 : wordOf .big (te4_0 x) = mkW (sbox (x.setWidth 8)) 0 0 0 := by
  rw [te4_0, wordOf_and, w_te4, m0]
  apply word_eq <;> simp [mkW, and_ff]
theorem w_te4_1 : wordOf .big (te4_1 x) = mkW 0 (sbox (x.setWidth 8)) 0 0 := by
  rw [te4_1, wordOf_and, w_te4, m1]
  apply word_eq <;> simp [mkW, and_ff]
theorem w_te4_2 : wordOf .big (te4_2 x) = mkW 0 0 (sbox (x.setWidth 8)) 0 := by
  rw [te4_2, wordOf_and, w_te4, m2]
  apply word_eq <;> simp [mkW, and_ff]
theorem w_te4_3 : wordOf .big (te4_3 x) = mkW 0 0 0 (sbox (x.setWidth 8)) := by
  rw [te4_3, wordOf_and, w_te4, m3]
  apply word_eq <;> simp [mkW, and_ff]
theorem w_td4_0 : wordOf .big (td4_0 x) = mkW (invSbox (x.setWidth 8)) 0 0 0 := by
  rw [td4_0, wordOf_and, w_td4, m0]
  apply word_eq <;> simp [mkW, and_ff]
theorem w_td4_1 : wordOf .big (td4_1 x) = mkW 0 (invSbox (x.setWidth 8)) 0 0 := by
  rw [td4_1, wordOf_and, w_td4, m1]
  apply word_eq <;> simp [mkW, and_ff]
theorem w_td4_2 : wordOf .big (td4_2 x) = mkW 0 0 (invSbox (x.setWidth 8)) 0 := by
  rw [td4_2, wordOf_and, w_td4, m2]
  apply word_eq <;> simp [mkW, and_ff]
theorem w_td4_3 : wordOf .big (td4_3 x) = mkW 0 0 0 (invSbox (x.setWidth 8)) := by
  rw [td4_3, wordOf_and, w_td4, m3]
  apply word_eq <;> simp [mkW, and_ff]

theorem low_te4_3 : (te4_3 x).setWidth 8 = sbox (x.setWidth 8) := by
  rw [← byte3, w_te4_3]; rfl
theorem low_td4_3 : (td4_3 x).setWidth 8 = invSbox (x.setWidth 8) := by
  rw [← byte3, w_td4_3]; rfl
end

theorem view_mk (a b c d : U32) : view (⟨a, b, c, d⟩ : Block) = qb .big a b c d := rfl
theorem view_kw0 (t : Block) : keyWords (view t) 0 = wordOf .big t.w0 := kw_qb0 ..
theorem view_kw1 (t : Block) : keyWords (view t) 1 = wordOf .big t.w1 := kw_qb1 ..
theorem view_kw2 (t : Block) : keyWords (view t) 2 = wordOf .big t.w2 := kw_qb2 ..
theorem view_kw3 (t : Block) : keyWords (view t) 3 = wordOf .big t.w3 := kw_qb3 ..

theorem f4 : (0 : Fin 4) + 0 = 0 ∧ (0 : Fin 4) + 1 = 1 ∧ (0 : Fin 4) + 2 = 2 ∧ (0 : Fin 4) + 3 = 3 ∧
    (1 : Fin 4) + 0 = 1 ∧ (1 : Fin 4) + 1 = 2 ∧ (1 : Fin 4) + 2 = 3 ∧ (1 : Fin 4) + 3 = 0 ∧
    (2 : Fin 4) + 0 = 2 ∧ (2 : Fin 4) + 1 = 3 ∧ (2 : Fin 4) + 2 = 0 ∧ (2 : Fin 4) + 3 = 1 ∧
    (3 : Fin 4) + 0 = 3 ∧ (3 : Fin 4) + 1 = 0 ∧ (3 : Fin 4) + 2 = 1 ∧ (3 : Fin 4) + 3 = 2 := by decide
theorem s4 : (0 : Fin 4) - 0 = 0 ∧ (0 : Fin 4) - 1 = 3 ∧ (0 : Fin 4) - 2 = 2 ∧ (0 : Fin 4) - 3 = 1 ∧
    (1 : Fin 4) - 0 = 1 ∧ (1 : Fin 4) - 1 = 0 ∧ (1 : Fin 4) - 2 = 3 ∧ (1 : Fin 4) - 3 = 2 ∧
    (2 : Fin 4) - 0 = 2 ∧ (2 : Fin 4) - 1 = 1 ∧ (2 : Fin 4) - 2 = 0 ∧ (2 : Fin 4) - 3 = 3 ∧
    (3 : Fin 4) - 0 = 3 ∧ (3 : Fin 4) - 1 = 2 ∧ (3 : Fin 4) - 2 = 1 ∧ (3 : Fin 4) - 3 = 0 := by decide

instance : LawfulEnc Block where
  view_enc a k := by
    apply bytes_ext
    apply fin4_cases <;> rw [kw_encRound, mixWord_eq] <;>
      simp only [f4, view_kw0, view_kw1, view_kw2, view_kw3, byte0, byte1, byte2, byte3] <;>
      simp only [AesVec.enc, enc, wordOf_xor, w_te0, w_te1, w_te2, w_te3]
  view_enc_last a k := by
    apply bytes_ext
    apply fin4_cases <;> rw [kw_encLastRound, word_parts (fun r => _)] <;>
      simp only [f4, view_kw0, view_kw1, view_kw2, view_kw3, byte0, byte1, byte2, byte3] <;>
      simp only [AesVec.enc_last, enc_last, wordOf_xor, w_te4_0, w_te4_1, w_te4_2, w_te4_3]

instance : LawfulDec Block where
  view_dec a k := by
    apply bytes_ext
    apply fin4_cases <;> rw [kw_decRound, invMixWord_eq] <;>
      simp only [s4, view_kw0, view_kw1, view_kw2, view_kw3, byte0, byte1, byte2, byte3] <;>
      simp only [AesVec.dec, dec, wordOf_xor, w_td0, w_td1, w_td2, w_td3]
  view_dec_last a k := by
    apply bytes_ext
    apply fin4_cases <;> rw [kw_decLastRound, word_parts (fun r => _)] <;>
      simp only [s4, view_kw0, view_kw1, view_kw2, view_kw3, byte0, byte1, byte2, byte3] <;>
      simp only [AesVec.dec_last, dec_last, wordOf_xor, w_td4_0, w_td4_1, w_td4_2, w_td4_3]
  view_mc a := by
    apply bytes_ext
    apply fin4_cases <;> rw [kw_mixCols, mixWord_eq] <;>
      simp only [view_kw0, view_kw1, view_kw2, view_kw3, byte0, byte1, byte2, byte3] <;>
      simp only [AesBlock.mc, mc, wordOf_xor, w_te0, w_te1, w_te2, w_te3, low_td4_3, sbox_invSbox]
  view_imc a := by
    apply bytes_ext
    apply fin4_cases <;> rw [kw_invMixCols, invMixWord_eq] <;>
      simp only [view_kw0, view_kw1, view_kw2, view_kw3, byte0, byte1, byte2, byte3] <;>
      simp only [AesBlock.imc, imc, wordOf_xor, w_td0, w_td1, w_td2, w_td3, low_te4_3, invSbox_sbox]

instance : LawfulPre Block where
  pre_enc_eq _ h := by cases h
  pre_dec_eq _ h := by cases h

/-! ### key schedule -/
theorem wordOf_sub_word (x : U32) : wordOf .big (sub_word x) = subWord (rotWord (wordOf .big x)) := by
  rw [sub_word, wordOf_or, wordOf_or, wordOf_or, w_te4_0, w_te4_1, w_te4_2, w_te4_3]
  apply word_eq <;> simp [mkW, subWord, rotWord, byte0, byte1, byte2, byte3]

theorem wordOf_rotr8 (x : U32) : wordOf .big (x.rotateRight 8) = fun i => wordOf .big x (i + 3) := by
  apply word_eq <;> simp [wordOf, toNe, toBe, toLe, byte_rotateRight8]

theorem sub_rot (x : U32) : wordOf .big (sub_word (x.rotateRight 8)) = subWord (wordOf .big x) := by
  rw [wordOf_sub_word, wordOf_rotr8]
  apply word_eq <;> simp [subWord, rotWord, f4]

/-- `Rcon` words as the constants of the source. -/
theorem rc_val {j : Nat} {b : Byte} {x : U32} (h : rcon j = rconW b) (hx : x = b.setWidth 32 <<< 24) :
    wordOf .big x = rcon j := by
  rw [h, hx, show (b.setWidth 32 <<< 24 : U32) = b.setWidth 32 <<< 24 ||| (0#8).setWidth 32 <<< 16 |||
    (0#8).setWidth 32 <<< 8 ||| (0#8).setWidth 32 by simp, or_bytes, wordOf_ofWord]
  apply word_eq <;> rfl

/-- Round key `r`, as the backend's block. -/
def RK (w : Nat → Word) (r : Nat) : Block :=
  ⟨ofWord .big (w (4 * r)), ofWord .big (w (4 * r + 1)), ofWord .big (w (4 * r + 2)), ofWord .big (w (4 * r + 3))⟩

theorem ofB_rkb (w : Nat → Word) (r : Nat) : ofB' (roundKeyBytes w r) = RK w r := by
  simp only [ofB', RK, qw, keyWords_roundKeyBytes]; rfl

/-- The first word of a group. -/
theorem first_ok (x y : U32) (a b : Word) {j : Nat} {rc : U32} (hrc : wordOf .big rc = rcon j)
    (hx : x = ofWord .big a) (hy : y = ofWord .big b) :
    x ^^^ sub_word y ^^^ rc = ofWord .big (Word.add a (Word.add (subWord (rotWord b)) (rcon j))) := by
  apply wordOf_inj (e := .big)
  rw [wordOf_ofWord, wordOf_xor, wordOf_xor, wordOf_sub_word, hx, hy, wordOf_ofWord, wordOf_ofWord, hrc, Word.add_assoc]

theorem keyexp_128_ok (key : Vector Byte 16) (r : Nat) (rc : U32) (hrc : wordOf .big rc = rcon (r + 1)) :
    keyexp_128 rc (RK (keyExpansion 4 key) r) = RK (keyExpansion 4 key) (r + 1) := by
  have e0 : _ ^^^ sub_word _ ^^^ rc = ofWord .big (keyExpansion 4 key (4 * (r + 1))) :=
    (first_ok _ _ (keyExpansion 4 key (4 * r)) (keyExpansion 4 key (4 * r + 3)) hrc rfl rfl).trans
      (congrArg _ (keyExpansion_first 4 key r (by omega)).symm)
  have e1 := congrArg (ofWord .big) (keyExpansion_rest 4 key r 0 (by omega) (by omega))
  have e2 := congrArg (ofWord .big) (keyExpansion_rest 4 key r 1 (by omega) (by omega))
  have e3 := congrArg (ofWord .big) (keyExpansion_rest 4 key r 2 (by omega) (by omega))
  simp only [ofWord_add, Nat.add_zero, Nat.zero_add, Nat.reduceAdd] at e1 e2 e3
  simp only [keyexp_128, RK, e0, ← e1, ← e2, ← e3]

theorem keyexp_256_1_ok (key : Vector Byte 32) (g : Nat) (rc : U32) (hrc : wordOf .big rc = rcon (g + 1)) :
    keyexp_256_1 rc (RK (keyExpansion 8 key) (2 * g)) (RK (keyExpansion 8 key) (2 * g + 1))
      = RK (keyExpansion 8 key) (2 * g + 2) := by
  have e0 : _ ^^^ sub_word _ ^^^ rc = ofWord .big (keyExpansion 8 key (8 * (g + 1))) :=
    (first_ok _ _ (keyExpansion 8 key (8 * g)) (keyExpansion 8 key (8 * g + 7)) hrc rfl rfl).trans
      (congrArg _ (keyExpansion_first 8 key g (by omega)).symm)
  have e1 := congrArg (ofWord .big) (keyExpansion_rest 8 key g 0 (by omega) (by omega))
  have e2 := congrArg (ofWord .big) (keyExpansion_rest 8 key g 1 (by omega) (by omega))
  have e3 := congrArg (ofWord .big) (keyExpansion_rest 8 key g 2 (by omega) (by omega))
  simp only [ofWord_add, Nat.add_zero, Nat.zero_add, Nat.reduceAdd] at e1 e2 e3
  simp only [keyexp_256_1, RK, show 4 * (2 * g) = 8 * g by omega, show 4 * (2 * g + 1) + 3 = 8 * g + 7 by omega,
    show 4 * (2 * g + 2) = 8 * (g + 1) by omega, e0, ← e1, ← e2, ← e3]

theorem keyexp_256_2_ok (key : Vector Byte 32) (g : Nat) :
    keyexp_256_2 (RK (keyExpansion 8 key) (2 * g + 1)) (RK (keyExpansion 8 key) (2 * g + 2))
      = RK (keyExpansion 8 key) (2 * g + 3) := by
  have e0 := congrArg (ofWord .big) (keyExpansion_fifth 8 key g (by omega))
  have e1 := congrArg (ofWord .big) (keyExpansion_rest 8 key g 4 (by omega) (by omega))
  have e2 := congrArg (ofWord .big) (keyExpansion_rest 8 key g 5 (by omega) (by omega))
  have e3 := congrArg (ofWord .big) (keyExpansion_rest 8 key g 6 (by omega) (by omega))
  have es (w : Word) : sub_word ((ofWord .big w).rotateRight 8) = ofWord .big (subWord w) := by
    apply wordOf_inj (e := .big); rw [sub_rot, wordOf_ofWord, wordOf_ofWord]
  simp only [ofWord_add, Nat.reduceAdd] at e0 e1 e2 e3
  simp only [keyexp_256_2, RK, es, show 4 * (2 * g + 1) = 8 * g + 4 by omega, Nat.add_assoc, Nat.reduceAdd,
    show 4 * (2 * g + 2) + 3 = 8 * (g + 1) + 3 by omega, show 4 * (2 * g + 3) = 8 * (g + 1) + 4 by omega,
    ← e0, ← e1, ← e2, ← e3]

/-- Group `g` of the 192-bit schedule. -/
def G6 (w : Nat → Word) (g : Nat) : Vector U32 6 :=
  #v[ofWord .big (w (6 * g)), ofWord .big (w (6 * g + 1)), ofWord .big (w (6 * g + 2)),
     ofWord .big (w (6 * g + 3)), ofWord .big (w (6 * g + 4)), ofWord .big (w (6 * g + 5))]

theorem keyexp_192_ok (key : Vector Byte 24) (g : Nat) (rc : U32) (hrc : wordOf .big rc = rcon (g + 1)) :
    keyexp_192 rc (G6 (keyExpansion 6 key) g) = G6 (keyExpansion 6 key) (g + 1) := by
  have e0 : _ ^^^ sub_word _ ^^^ rc = ofWord .big (keyExpansion 6 key (6 * (g + 1))) :=
    (first_ok _ _ (keyExpansion 6 key (6 * g)) (keyExpansion 6 key (6 * g + 5)) hrc rfl rfl).trans
      (congrArg _ (keyExpansion_first 6 key g (by omega)).symm)
  have e1 := congrArg (ofWord .big) (keyExpansion_rest 6 key g 0 (by omega) (by omega))
  have e2 := congrArg (ofWord .big) (keyExpansion_rest 6 key g 1 (by omega) (by omega))
  have e3 := congrArg (ofWord .big) (keyExpansion_rest 6 key g 2 (by omega) (by omega))
  have e4 := congrArg (ofWord .big) (keyExpansion_rest 6 key g 3 (by omega) (by omega))
  have e5 := congrArg (ofWord .big) (keyExpansion_rest 6 key g 4 (by omega) (by omega))
  simp only [ofWord_add, Nat.add_zero, Nat.zero_add, Nat.reduceAdd] at e1 e2 e3 e4 e5
  simp only [keyexp_192, G6, Vector.getElem_mk, List.getElem_toArray, List.getElem_cons_zero, List.getElem_cons_succ,
    e0, ← e1, ← e2, ← e3, ← e4, ← e5]

theorem keygen_128_ok (key : Vector Byte 16) :
    keygen_128 key = .ok (Vector.ofFn fun r => ofB' (roundKeyBytes (keyExpansion 4 key) r)) := by
  obtain ⟨r1, r2, r3, r4, r5, r6, r7, r8, r9, r10⟩ := rcon_vals
  simp only [ofB_rkb]
  have e0 : ofB' key = RK (keyExpansion 4 key) 0 := by
    rw [← ofB_rkb, ← ke128_init]
  have step := keyexp_128_ok key
  obtain ⟨K, hK⟩ : ∃ K : Nat → Block, K = RK (keyExpansion 4 key) := ⟨_, rfl⟩
  rw [← hK] at e0 step ⊢
  clear hK
  have s1 : keyexp_128 0x01000000#32 (K 0) = K 1 := step 0 _ (rc_val r1 rfl)
  have s2 : keyexp_128 0x02000000#32 (K 1) = K 2 := step 1 _ (rc_val r2 rfl)
  have s3 : keyexp_128 0x04000000#32 (K 2) = K 3 := step 2 _ (rc_val r3 rfl)
  have s4 : keyexp_128 0x08000000#32 (K 3) = K 4 := step 3 _ (rc_val r4 rfl)
  have s5 : keyexp_128 0x10000000#32 (K 4) = K 5 := step 4 _ (rc_val r5 rfl)
  have s6 : keyexp_128 0x20000000#32 (K 5) = K 6 := step 5 _ (rc_val r6 rfl)
  have s7 : keyexp_128 0x40000000#32 (K 6) = K 7 := step 6 _ (rc_val r7 rfl)
  have s8 : keyexp_128 0x80000000#32 (K 7) = K 8 := step 7 _ (rc_val r8 rfl)
  have s9 : keyexp_128 0x1b000000#32 (K 8) = K 9 := step 8 _ (rc_val r9 rfl)
  have s10 : keyexp_128 0x36000000#32 (K 9) = K 10 := step 9 _ (rc_val r10 rfl)
  unfold keygen_128
  rw [show from_bytes key = .ok (ofB' key) from new_ok key]
  simp only [bind_ok, e0, s1, s2, s3, s4, s5, s6, s7, s8, s9, s10, pure_ok]
  exact congrArg Except.ok (lit11 K)

theorem keygen_256_ok (key : Vector Byte 32) :
    keygen_256 key = .ok (Vector.ofFn fun r => ofB' (roundKeyBytes (keyExpansion 8 key) r)) := by
  obtain ⟨r1, r2, r3, r4, r5, r6, r7, r8, r9, r10⟩ := rcon_vals
  simp only [ofB_rkb]
  have e0 : ofB' (slice key 0 16 (by omega)) = RK (keyExpansion 8 key) 0 := by
    rw [← ofB_rkb, ← ke256_init0]
  have e1 : ofB' (slice key 16 16 (by omega)) = RK (keyExpansion 8 key) 1 := by
    rw [← ofB_rkb, ← ke256_init1]
  have s1 := keyexp_256_1_ok key
  have s2 := keyexp_256_2_ok key
  obtain ⟨K, hK⟩ : ∃ K : Nat → Block, K = RK (keyExpansion 8 key) := ⟨_, rfl⟩
  rw [← hK] at e0 e1 s1 s2 ⊢
  clear hK
  have a0 : keyexp_256_1 0x01000000#32 (K 0) (K 1) = K 2 := s1 0 _ (rc_val r1 rfl)
  have a1 : keyexp_256_1 0x02000000#32 (K 2) (K 3) = K 4 := s1 1 _ (rc_val r2 rfl)
  have a2 : keyexp_256_1 0x04000000#32 (K 4) (K 5) = K 6 := s1 2 _ (rc_val r3 rfl)
  have a3 : keyexp_256_1 0x08000000#32 (K 6) (K 7) = K 8 := s1 3 _ (rc_val r4 rfl)
  have a4 : keyexp_256_1 0x10000000#32 (K 8) (K 9) = K 10 := s1 4 _ (rc_val r5 rfl)
  have a5 : keyexp_256_1 0x20000000#32 (K 10) (K 11) = K 12 := s1 5 _ (rc_val r6 rfl)
  have a6 : keyexp_256_1 0x40000000#32 (K 12) (K 13) = K 14 := s1 6 _ (rc_val r7 rfl)
  have b0 : keyexp_256_2 (K 1) (K 2) = K 3 := s2 0
  have b1 : keyexp_256_2 (K 3) (K 4) = K 5 := s2 1
  have b2 : keyexp_256_2 (K 5) (K 6) = K 7 := s2 2
  have b3 : keyexp_256_2 (K 7) (K 8) = K 9 := s2 3
  have b4 : keyexp_256_2 (K 9) (K 10) = K 11 := s2 4
  have b5 : keyexp_256_2 (K 11) (K 12) = K 13 := s2 5
  clear s1 s2
  have fb : ∀ v, from_bytes v = .ok (ofB' v) := new_ok
  have t0 := try_from_lo fb key (by omega)
  have t1 := try_from_hi fb key
  unfold keygen_256
  rw [sliceTo_ok _ _ (by simp)] at t0 ⊢
  rw [sliceFrom_ok _ _ (by simp)] at t1 ⊢
  simp only [bind_ok] at t0 t1 ⊢
  rw [bind_of_bind_ok t0]
  rw [bind_of_bind_ok t1]
  simp only [e0, e1, a0, a1, a2, a3, a4, a5, a6, b0, b1, b2, b3, b4, b5, pure_ok]
  exact congrArg Except.ok (lit15 K)

theorem keygen_192_ok (key : Vector Byte 24) :
    keygen_192 key = .ok (Vector.ofFn fun r => ofB' (roundKeyBytes (keyExpansion 6 key) r)) := by
  obtain ⟨r1, r2, r3, r4, r5, r6, r7, r8, r9, r10⟩ := rcon_vals
  simp only [ofB_rkb]
  have l (c : Nat) (h : c < 6) : load_u32_be key.toList (4 * c) = .ok (ofWord .big (keyExpansion 6 key c)) := by
    rw [keyExpansion_init 6 key h]; exact load_ok key c (by omega)
  have l0 := l 0 (by omega)
  have l1 := l 1 (by omega)
  have l2 := l 2 (by omega)
  have l3 := l 3 (by omega)
  have l4 := l 4 (by omega)
  have l5 := l 5 (by omega)
  have step := keyexp_192_ok key
  obtain ⟨w, hw⟩ : ∃ w, w = keyExpansion 6 key := ⟨_, rfl⟩
  rw [← hw] at step l0 l1 l2 l3 l4 l5 ⊢
  clear hw l
  simp only [Nat.mul_zero, Nat.reduceMul] at l0 l1 l2 l3 l4 l5
  have i0 : (#v[ofWord .big (w 0), ofWord .big (w 1), ofWord .big (w 2), ofWord .big (w 3), ofWord .big (w 4),
    ofWord .big (w 5)] : Vector U32 6) = G6 w 0 := rfl
  have s1 : keyexp_192 0x01000000#32 (G6 w 0) = G6 w 1 := step 0 _ (rc_val r1 rfl)
  have s2 : keyexp_192 0x02000000#32 (G6 w 1) = G6 w 2 := step 1 _ (rc_val r2 rfl)
  have s3 : keyexp_192 0x04000000#32 (G6 w 2) = G6 w 3 := step 2 _ (rc_val r3 rfl)
  have s4 : keyexp_192 0x08000000#32 (G6 w 3) = G6 w 4 := step 3 _ (rc_val r4 rfl)
  have s5 : keyexp_192 0x10000000#32 (G6 w 4) = G6 w 5 := step 4 _ (rc_val r5 rfl)
  have s6 : keyexp_192 0x20000000#32 (G6 w 5) = G6 w 6 := step 5 _ (rc_val r6 rfl)
  have s7 : keyexp_192 0x40000000#32 (G6 w 6) = G6 w 7 := step 6 _ (rc_val r7 rfl)
  have s8 : keyexp_192 0x80000000#32 (G6 w 7) = G6 w 8 := step 7 _ (rc_val r8 rfl)
  unfold keygen_192
  rw [l0, l1, l2, l3, l4, l5]
  simp only [bind_ok, i0, s1, s2, s3, s4, s5, s6, s7, s8, pure_ok]
  exact congrArg Except.ok (lit13 (RK w))

instance : LawfulKeygen Block where
  keygen_128_eq := keygen_128_ok
  keygen_192_eq := keygen_192_ok
  keygen_256_eq := keygen_256_ok

end Aes.Table
