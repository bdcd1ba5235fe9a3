import Verif.Model.Riscv32
import Verif.Proofs.Words
import Verif.Spec.Rv32
/-! src/aes_riscv32.rs: the laws it satisfies, and what it computes where it does not. -/
set_option linter.unusedSimpArgs false
namespace Aes.Riscv32
open Rust AesSpec Fips197 Columns IsaRiscv

/-! ### data -/
theorem memory_eq (t : Block) : memory t = qb .little t.w0 t.w1 t.w2 t.w3 := by
  apply Vector.ext; intro i hi
  simp only [memory, qb, Vector.getElem_ofFn, wordOf, toNe]
  rcases (show i / 4 = 0 ∨ i / 4 = 1 ∨ i / 4 = 2 ∨ i / 4 = 3 by omega) with h | h | h | h <;> simp only [h]
  · rw [Vector.getElem_append_left (by omega), Vector.getElem_append_left (by omega)]; congr 1; omega
  · rw [Vector.getElem_append_left (by omega), Vector.getElem_append_right (by omega) (by omega)]; congr 1; omega
  · rw [Vector.getElem_append_right (by omega) (by omega), Vector.getElem_append_left (by omega)]; congr 1; omega
  · rw [Vector.getElem_append_right (by omega) (by omega), Vector.getElem_append_right (by omega) (by omega)]; congr 1; omega

def ofB' (v : Bytes 16) : Block := ⟨qw .little v 0, qw .little v 1, qw .little v 2, qw .little v 3⟩
def view' (b : Block) : Bytes 16 := qb .little b.w0 b.w1 b.w2 b.w3

theorem new_ok (v : Vector U8 16) : new v = .ok (ofB' v) := by
  unfold new ofB' qw ofWord fromNe keyWords
  simp

instance : LawfulVec Block where
  view := view'
  ofB := ofB'
  view_ofB v := qb_qw .little v
  ofB_view t := by
    obtain ⟨a, b, c, d⟩ := t
    simp only [ofB', view', qw_qb0, qw_qb1, qw_qb2, qw_qb3]
  new_eq := new_ok
  from_bytes_eq := new_ok
  store_to_ok t dst h := by
    show (do assert _; rawWrite dst (memory t)) = _
    rw [assert_ge h, memory_eq]; exact rawWrite_ok dst _ h
  store_to_short t dst h := by
    show (do assert _; rawWrite dst (memory t)) = _
    rw [assert_ge_not h]; rfl
  view_zero := qb_zero _
  is_zero_eq t := by
    show ((t.w0 ||| t.w1 ||| t.w2 ||| t.w3) == 0) = _
    rw [Bool.eq_iff_iff, beq_iff_eq, decide_eq_true_iff]
    exact (qb_eq_zero ..).symm
  eq_eq a b := by
    show decide (a = b) = _
    apply decide_eq_decide.mpr
    constructor
    · rintro rfl; rfl
    · intro h
      obtain ⟨h0, h1, h2, h3⟩ := qb_inj h
      cases a; cases b; simp_all
  view_and _ _ := qb_and ..
  view_or _ _ := qb_or ..
  view_xor _ _ := qb_xor ..
  view_not _ := qb_not ..

/-! ### instructions -/
theorem getbyte_word (x : U32) : getbyte x 0 = wordOf .little x 0 ∧ getbyte x 1 = wordOf .little x 1 ∧
    getbyte x 2 = wordOf .little x 2 ∧ getbyte x 3 = wordOf .little x 3 := by
  refine ⟨?_, ?_, ?_, ?_⟩ <;> simp [wordOf, toNe, toLe, getbyte]

theorem rotl_word (x : U32) : wordOf .little (x.rotateLeft 0) = wordOf .little x ∧
    wordOf .little (x.rotateLeft 8) = (fun j => wordOf .little x (j + 3)) ∧
    wordOf .little (x.rotateLeft 16) = (fun j => wordOf .little x (j + 2)) ∧
    wordOf .little (x.rotateLeft 24) = (fun j => wordOf .little x (j + 1)) := by
  refine ⟨?_, ?_, ?_, ?_⟩ <;> apply word_eq <;> simp only [wordOf, toNe, getElem_toLe] <;>
    apply BitVec.eq_of_getLsbD_eq <;> intro k hk <;>
    (simp [BitVec.getLsbD_extractLsb', BitVec.getLsbD_rotateLeft, hk]; try (rcases (show k = 0 ∨ k = 1 ∨ k = 2 ∨ k = 3 ∨ k = 4 ∨ k = 5 ∨ k = 6 ∨ k = 7 by omega) with h | h | h | h | h | h | h | h <;> subst h <;> simp))

theorem word_setWidth (b : U8) : wordOf .little (b.setWidth 32) = mkW b 0 0 0 := by
  apply word_eq <;> revert b <;> decide +kernel
theorem word_mf (b : U8) : wordOf .little (mixcolumn_byte_fwd b) = mkW (mul 0x02#8 b) b b (mul 0x03#8 b) := by
  unfold mixcolumn_byte_fwd
  apply word_eq <;> simp [wordOf, toNe, toLe_fromLe, mkW]
theorem word_mi (b : U8) : wordOf .little (mixcolumn_byte_inv b) =
    mkW (mul 0x0e#8 b) (mul 0x09#8 b) (mul 0x0d#8 b) (mul 0x0b#8 b) := by
  unfold mixcolumn_byte_inv
  apply word_eq <;> simp [wordOf, toNe, toLe_fromLe, mkW]

theorem inner_esm (t0 t1 t2 t3 rk : U32) : wordOf .little (inner aes32esmi t0 t1 t2 t3 rk) =
    Word.add (mixWord (mkW (sbox (wordOf .little t0 0)) (sbox (wordOf .little t1 1))
      (sbox (wordOf .little t2 2)) (sbox (wordOf .little t3 3)))) (wordOf .little rk) := by
  simp only [inner, aes32esmi, wordOf_xor, Nat.reduceMul, rotl_word, word_mf, getbyte_word, mixWord_eq]
  apply word_eq <;> simp [Word.add, mkW] <;> xor_norm
theorem inner_es (t0 t1 t2 t3 rk : U32) : wordOf .little (inner aes32esi t0 t1 t2 t3 rk) =
    Word.add (mkW (sbox (wordOf .little t0 0)) (sbox (wordOf .little t1 1))
      (sbox (wordOf .little t2 2)) (sbox (wordOf .little t3 3))) (wordOf .little rk) := by
  simp only [inner, aes32esi, wordOf_xor, Nat.reduceMul, rotl_word, word_setWidth, getbyte_word]
  apply word_eq <;> simp [Word.add, mkW] <;> xor_norm
theorem inner_dsm (t0 t1 t2 t3 rk : U32) : wordOf .little (inner aes32dsmi t0 t1 t2 t3 rk) =
    Word.add (invMixWord (mkW (invSbox (wordOf .little t0 0)) (invSbox (wordOf .little t1 1))
      (invSbox (wordOf .little t2 2)) (invSbox (wordOf .little t3 3)))) (wordOf .little rk) := by
  simp only [inner, aes32dsmi, wordOf_xor, Nat.reduceMul, rotl_word, word_mi, getbyte_word, invMixWord_eq]
  apply word_eq <;> simp [Word.add, mkW] <;> xor_norm
theorem inner_ds (t0 t1 t2 t3 rk : U32) : wordOf .little (inner aes32dsi t0 t1 t2 t3 rk) =
    Word.add (mkW (invSbox (wordOf .little t0 0)) (invSbox (wordOf .little t1 1))
      (invSbox (wordOf .little t2 2)) (invSbox (wordOf .little t3 3))) (wordOf .little rk) := by
  simp only [inner, aes32dsi, wordOf_xor, Nat.reduceMul, rotl_word, word_setWidth, getbyte_word]
  apply word_eq <;> simp [Word.add, mkW] <;> xor_norm

theorem view_kw0 (t : Block) : keyWords (view t) 0 = wordOf .little t.w0 := kw_qb0 ..
theorem view_kw1 (t : Block) : keyWords (view t) 1 = wordOf .little t.w1 := kw_qb1 ..
theorem view_kw2 (t : Block) : keyWords (view t) 2 = wordOf .little t.w2 := kw_qb2 ..
theorem view_kw3 (t : Block) : keyWords (view t) 3 = wordOf .little t.w3 := kw_qb3 ..

theorem f4 : (0 : Fin 4) + 0 = 0 ∧ (0 : Fin 4) + 1 = 1 ∧ (0 : Fin 4) + 2 = 2 ∧ (0 : Fin 4) + 3 = 3 ∧
    (1 : Fin 4) + 0 = 1 ∧ (1 : Fin 4) + 1 = 2 ∧ (1 : Fin 4) + 2 = 3 ∧ (1 : Fin 4) + 3 = 0 ∧
    (2 : Fin 4) + 0 = 2 ∧ (2 : Fin 4) + 1 = 3 ∧ (2 : Fin 4) + 2 = 0 ∧ (2 : Fin 4) + 3 = 1 ∧
    (3 : Fin 4) + 0 = 3 ∧ (3 : Fin 4) + 1 = 0 ∧ (3 : Fin 4) + 2 = 1 ∧ (3 : Fin 4) + 3 = 2 := by decide
theorem mkW_eta (w : Word) : mkW (w 0) (w 1) (w 2) (w 3) = w := by apply word_eq <;> rfl

theorem kw_rv32DecRound (s k : Bytes 16) (c : Fin 4) : keyWords (rv32DecRound s k) c =
    Word.add (invMixWord fun r => invSbox (keyWords s (c + r) r)) (keyWords k c) := by
  rw [rv32DecRound, keyWords_toBytes]; funext r
  simp only [addRoundKey, invMixColumns, shiftRows, invSubBytes, ofBytes_kw, Word.add, invMixWord]
theorem kw_rv32DecLastRound (s k : Bytes 16) (c : Fin 4) : keyWords (rv32DecLastRound s k) c =
    Word.add (fun r => invSbox (keyWords s (c + r) r)) (keyWords k c) := by
  rw [rv32DecLastRound, keyWords_toBytes]; funext r
  simp only [addRoundKey, shiftRows, invSubBytes, ofBytes_kw, Word.add]

theorem view_pre_enc (a k : Block) : view (pre_enc a k) = encRound (view a) (view k) := by
  apply bytes_ext
  apply fin4_cases <;> rw [kw_encRound, ← mkW_eta (fun r => sbox _)] <;>
    simp only [pre_enc, outer, f4, view_kw0, view_kw1, view_kw2, view_kw3, inner_esm]
theorem view_pre_enc_last (a k : Block) : view (pre_enc_last a k) = encLastRound (view a) (view k) := by
  apply bytes_ext
  apply fin4_cases <;> rw [kw_encLastRound, ← mkW_eta (fun r => sbox _)] <;>
    simp only [pre_enc_last, outer, f4, view_kw0, view_kw1, view_kw2, view_kw3, inner_es]
theorem view_pre_dec (a k : Block) : view (pre_dec a k) = rv32DecRound (view a) (view k) := by
  apply bytes_ext
  apply fin4_cases <;> rw [kw_rv32DecRound, ← mkW_eta (fun r => invSbox _)] <;>
    simp only [pre_dec, outer, f4, view_kw0, view_kw1, view_kw2, view_kw3, inner_dsm]
theorem view_pre_dec_last (a k : Block) : view (pre_dec_last a k) = rv32DecLastRound (view a) (view k) := by
  apply bytes_ext
  apply fin4_cases <;> rw [kw_rv32DecLastRound, ← mkW_eta (fun r => invSbox _)] <;>
    simp only [pre_dec_last, outer, f4, view_kw0, view_kw1, view_kw2, view_kw3, inner_ds]

/-- Adding the key after a round with the zero key. -/
theorem outer_zero (name : U32 → U32 → Nat → U32) (h : ∀ r s b, name r s b = r ^^^ name 0 s b) (a k : Block) :
    bitxor (outer name a zero) k = outer name a k := by
  have hi (t0 t1 t2 t3 r : U32) : inner name t0 t1 t2 t3 0 ^^^ r = inner name t0 t1 t2 t3 r := by
    unfold inner
    simp only []
    rw [h (name (name (name 0 t0 0) t1 1) t2 2), h (name (name 0 t0 0) t1 1), h (name 0 t0 0),
      h (name (name (name r t0 0) t1 1) t2 2), h (name (name r t0 0) t1 1), h (name r t0 0), h r]
    rw [BitVec.xor_comm]
    simp only [BitVec.xor_assoc]
  simp only [outer, bitxor, zero, hi]

theorem enc_eq (a k : Block) : enc a k = pre_enc a k := outer_zero _ (fun r s b => by simp [aes32esmi]) a k
theorem enc_last_eq (a k : Block) : enc_last a k = pre_enc_last a k := outer_zero _ (fun r s b => by simp [aes32esi]) a k
theorem dec_eq (a k : Block) : dec a k = pre_dec a k := outer_zero _ (fun r s b => by simp [aes32dsmi]) a k
theorem dec_last_eq (a k : Block) : dec_last a k = pre_dec_last a k := outer_zero _ (fun r s b => by simp [aes32dsi]) a k

instance : LawfulEnc Block where
  view_enc a k := by show view (enc a k) = _; rw [enc_eq, view_pre_enc]
  view_enc_last a k := by show view (enc_last a k) = _; rw [enc_last_eq, view_pre_enc_last]

theorem view_dec (a k : Block) : view (dec a k) = rv32DecRound (view a) (view k) := by rw [dec_eq, view_pre_dec]
theorem view_dec_last (a k : Block) : view (dec_last a k) = rv32DecLastRound (view a) (view k) := by
  rw [dec_last_eq, view_pre_dec_last]

theorem ofBytes_toBytes' (s : State) : State.ofBytes (State.toBytes s) = s := by
  funext r c
  rw [ofBytes_kw, keyWords_toBytes]
theorem addRoundKey_zero (s : State) : addRoundKey (keyWords (zeroB 16)) s = s := by
  funext r c; simp [addRoundKey, keyWords, zeroB]

theorem view_zero' : view (zero : Block) = zeroB 16 := qb_zero _

theorem view_mc (a : Block) : view (mc a) = rv32Mc (view a) := by
  rw [mc, enc_eq, view_pre_enc, view_pre_dec_last, view_zero', encRound, rv32DecLastRound, addRoundKey_zero,
    addRoundKey_zero, ofBytes_toBytes', rv32Mc]
  rw [show subBytes (invSubBytes (shiftRows (State.ofBytes (view a)))) = shiftRows (State.ofBytes (view a)) by
    funext r c; simp [subBytes, invSubBytes, sbox_invSbox]]
theorem view_imc (a : Block) : view (imc a) = rv32Imc (view a) := by
  rw [imc, dec_eq, view_pre_dec, view_pre_enc_last, view_zero', rv32DecRound, encLastRound, addRoundKey_zero,
    addRoundKey_zero, ofBytes_toBytes', rv32Imc]
  rw [show invSubBytes (shiftRows (shiftRows (subBytes (State.ofBytes (view a)))))
      = shiftRows (shiftRows (State.ofBytes (view a))) by
    funext r c; simp [shiftRows, subBytes, invSubBytes, invSbox_sbox]]

/-! ### key schedule -/
theorem wordOf_sub_word (x y : U32) : wordOf .little (sub_word x y) = Word.add (wordOf .little x) (subWord (wordOf .little y)) := by
  have : sub_word x y = inner aes32esi y y y y x := rfl
  rw [this, inner_es, Word.add_comm]
  refine congrArg (Word.add _) ?_
  apply word_eq <;> rfl

theorem first_ok (old prev : U32) (k : Nat) (hk : k < 10) : wordOf .little (first old prev (RCON.toList.getD k 0)) =
    Word.add (wordOf .little old) (Word.add (subWord (wordOf .little prev)) (rcon (k + 1))) := by
  unfold first
  rw [wordOf_sub_word, wordOf_xor, wordOf_RCON_le k hk, Word.add_assoc, Word.add_comm (rcon _)]
theorem first_256_ok (old prev : U32) (k : Nat) (hk : k < 10) : wordOf .little (first_256 old prev (RCON.toList.getD k 0)) =
    Word.add (wordOf .little old) (Word.add (subWord (rotWord (wordOf .little prev))) (rcon (k + 1))) := by
  unfold first_256
  rw [wordOf_sub_word, wordOf_xor, wordOf_RCON_le k hk, wordOf_rotr8_le, Word.add_assoc, Word.add_comm (rcon _)]
theorem fifth_ok (old prev : U32) : wordOf .little (fifth old prev) =
    Word.add (wordOf .little old) (subWord (wordOf .little prev)) := wordOf_sub_word _ _

theorem mapM_new {N : Nat} (v : Vector (Vector U8 16) N) : (v.mapM fun b => new b) = .ok (v.map ofB') := by
  have : (fun b => new b) = fun b => (pure (ofB' b) : M Block) := by funext b; rw [new_ok]; rfl
  rw [this]
  exact Vector.mapM_pure (m := M) ofB'

theorem keygen_128_ok (key : Vector U8 16) : keygen_128 key =
    .ok (Vector.ofFn fun r => ofB' (roundKeyBytes (keyExpansionWith (norotTemp 4) 4 key) r)) := by
  unfold keygen_128 as_blocks
  rw [columns_128_ok, bind_ok, blocks_ok .little (N := 11) key 4 _ _ (norotTemp 4) ?_ (by intros; omega) ?_, mapM_new]
  · refine congrArg Except.ok ?_
    apply Vector.ext; intro i hi; simp
  · intro i old prev hi h4 hm
    rw [first_ok _ _ _ (by omega), norotTemp, if_pos hm, show i / 4 - 1 + 1 = i / 4 by omega]
  · intro i w h h'; rw [norotTemp, if_neg h]
theorem keygen_192_ok (key : Vector U8 24) : keygen_192 key =
    .ok (Vector.ofFn fun r => ofB' (roundKeyBytes (keyExpansionWith (norotTemp 6) 6 key) r)) := by
  unfold keygen_192 as_blocks
  rw [columns_192_ok, bind_ok, blocks_ok .little (N := 13) key 6 _ _ (norotTemp 6) ?_ (by intros; omega) ?_, mapM_new]
  · refine congrArg Except.ok ?_
    apply Vector.ext; intro i hi; simp
  · intro i old prev hi h4 hm
    rw [first_ok _ _ _ (by omega), norotTemp, if_pos hm, show i / 6 - 1 + 1 = i / 6 by omega]
  · intro i w h h'; rw [norotTemp, if_neg h]
theorem keygen_256_ok (key : Vector U8 32) : keygen_256 key =
    .ok (Vector.ofFn fun r => ofB' (roundKeyBytes (keyExpansionWith norotTemp256 8 key) r)) := by
  unfold keygen_256 as_blocks
  rw [columns_256_ok, bind_ok, blocks_ok .little (N := 15) key 8 _ _ norotTemp256 ?_ ?_ ?_, mapM_new]
  · refine congrArg Except.ok ?_
    apply Vector.ext; intro i hi; simp
  · intro i old prev hi h4 hm
    by_cases h : i = 56
    · subst h
      rw [if_pos rfl, first_ok _ _ _ (by omega), norotTemp256, if_pos rfl]
    · rw [if_neg h, first_256_ok _ _ _ (by omega), norotTemp256, if_neg h, stdTemp, if_pos hm,
        show i / 8 - 1 + 1 = i / 8 by omega]
  · intro i old prev h6 h4
    rw [fifth_ok, norotTemp256, if_neg (by omega), stdTemp, if_neg (by omega), if_pos ⟨h6, h4⟩]
  · intro i w h h'; rw [norotTemp256, if_neg (by omega), stdTemp, if_neg h, if_neg h']

end Aes.Riscv32
