import Verif.Model.Riscv64
import Verif.Proofs.Words
/-! src/aes_riscv64.rs satisfies the laws. -/
set_option linter.unusedSimpArgs false
namespace Aes.Riscv64
open Rust AesSpec Fips197 Columns IsaRiscv

/-- Low and high word of a doubleword, in memory order. -/
def lw (x : U64) : Word := fun j => getbyte x j.val
def hw (x : U64) : Word := fun j => getbyte x (4 + j.val)

theorem getbyte_toLe (x : U64) (i : Nat) (h : i < 8) : (toLe 8 x)[i] = getbyte x i := by
  rw [getElem_toLe]; rfl
theorem u64_ext {x y : U64} (h0 : lw x = lw y) (h1 : hw x = hw y) : x = y := by
  apply toLe_inj (n := 8) (by omega)
  apply Vector.ext; intro i hi
  rw [getbyte_toLe, getbyte_toLe]
  by_cases h : i < 4
  · exact congrFun h0 ⟨i, h⟩
  · have := congrFun h1 ⟨i - 4, by omega⟩
    simp only [hw] at this
    rwa [show 4 + (i - 4) = i by omega] at this
theorem getbyte_fromLe (v : Vector U8 8) (i : Nat) (h : i < 8) : getbyte (fromLe 64 v) i = v[i] := by
  rw [← getbyte_toLe _ _ h]; simp only [toLe_fromLe 64 v (by omega)]
theorem lw_fromLe (v : Vector U8 8) : lw (fromLe 64 v) = mkW v[0] v[1] v[2] v[3] := by
  apply word_eq <;> exact getbyte_fromLe v _ (by simp)
theorem hw_fromLe (v : Vector U8 8) : hw (fromLe 64 v) = mkW v[4] v[5] v[6] v[7] := by
  apply word_eq <;> exact getbyte_fromLe v _ (by simp)
theorem getbyte_xor (x y : U64) (i : Nat) : getbyte (x ^^^ y) i = getbyte x i ^^^ getbyte y i := by
  simp [getbyte, BitVec.extractLsb'_xor]
theorem lw_xor (x y : U64) : lw (x ^^^ y) = Word.add (lw x) (lw y) := by
  funext j; exact getbyte_xor ..
theorem hw_xor (x y : U64) : hw (x ^^^ y) = Word.add (hw x) (hw y) := by
  funext j; exact getbyte_xor ..

/-! ### data -/
theorem memory_get (t : Block) (i : Nat) (h : i < 16) :
    (memory t)[i] = if i < 8 then getbyte t.d0 i else getbyte t.d1 (i - 8) := by
  unfold memory
  by_cases hi : i < 8
  · rw [if_pos hi, Vector.getElem_append_left hi, getbyte_toLe]
  · rw [if_neg hi, Vector.getElem_append_right (by omega) (by omega), getbyte_toLe]

theorem kwm0 (t : Block) : keyWords (memory t) 0 = lw t.d0 := by
  funext j; simp only [keyWords, memory_get]; rw [if_pos (by simp; omega)]; simp [lw]
theorem kwm1 (t : Block) : keyWords (memory t) 1 = hw t.d0 := by
  funext j; simp only [keyWords, memory_get]; rw [if_pos (by simp; omega)]; simp [hw]
theorem kwm2 (t : Block) : keyWords (memory t) 2 = lw t.d1 := by
  funext j; simp only [keyWords, memory_get]; rw [if_neg (by simp)]; simp [lw]
theorem kwm3 (t : Block) : keyWords (memory t) 3 = hw t.d1 := by
  funext j; simp only [keyWords, memory_get]; rw [if_neg (by simp; omega)]; simp only [hw]; congr 1; simp; omega

theorem block_ext {a b : Block} (h : memory a = memory b) : a = b := by
  have h0 := congrArg (keyWords · 0) h
  have h1 := congrArg (keyWords · 1) h
  have h2 := congrArg (keyWords · 2) h
  have h3 := congrArg (keyWords · 3) h
  simp only [kwm0, kwm1, kwm2, kwm3] at h0 h1 h2 h3
  cases a; cases b
  simp only [Block.mk.injEq]
  exact ⟨u64_ext h0 h1, u64_ext h2 h3⟩

def ofB' (value : Bytes 16) : Block :=
  ⟨fromLe 64 (Vector.ofFn fun i : Fin 8 => value[i.val]),
    fromLe 64 (Vector.ofFn fun i : Fin 8 => value[8 + i.val])⟩

theorem memory_ofB (v : Bytes 16) : memory (ofB' v) = v := by
  apply Vector.ext; intro i hi
  rw [memory_get]
  by_cases h : i < 8
  · rw [if_pos h, ofB', getbyte_fromLe _ _ h]; simp
  · rw [if_neg h, ofB', getbyte_fromLe _ _ (by omega)]; simp [show 8 + (i - 8) = i by omega]

theorem memory_zip {f : U64 → U64 → U64} {g : U8 → U8 → U8}
    (h : ∀ x y i, getbyte (f x y) i = g (getbyte x i) (getbyte y i)) (a b : Block) :
    memory ⟨f a.d0 b.d0, f a.d1 b.d1⟩ = Vector.zipWith g (memory a) (memory b) := by
  apply Vector.ext; intro i hi
  rw [Vector.getElem_zipWith, memory_get, memory_get, memory_get]
  split <;> simp only [h]

instance : LawfulVec Block where
  view := memory
  ofB := ofB'
  view_ofB := memory_ofB
  ofB_view t := block_ext (memory_ofB _)
  new_eq _ := rfl
  from_bytes_eq _ := rfl
  store_to_ok t dst h := by
    show (do assert _; rawWrite dst (memory t)) = _
    rw [assert_ge h]; exact rawWrite_ok dst (memory t) h
  store_to_short t dst h := by
    show (do assert _; rawWrite dst (memory t)) = _
    rw [assert_ge_not h]; rfl
  view_zero := by
    apply Vector.ext; intro i hi
    show (memory zero)[i] = _
    rw [memory_get]; simp [zero, zeroB, getbyte]
  is_zero_eq t := by
    show ((t.d0 ||| t.d1) == 0) = _
    rw [Bool.eq_iff_iff, beq_iff_eq, decide_eq_true_iff, or_eq_zero]
    have hz : memory zero = zeroB 16 := by
      apply Vector.ext; intro i hi
      rw [memory_get]; simp [zero, zeroB, getbyte]
    rw [← hz]
    constructor
    · rintro ⟨h0, h1⟩; cases t; simp_all [zero]
    · intro h; rw [block_ext h]; exact ⟨rfl, rfl⟩
  eq_eq a b := by
    show decide (a = b) = _
    exact decide_eq_decide.mpr ⟨congrArg _, block_ext⟩
  view_and a b := memory_zip (fun x y i => by simp [getbyte, BitVec.extractLsb'_and]) a b
  view_or a b := memory_zip (fun x y i => by simp [getbyte, BitVec.extractLsb'_or]) a b
  view_xor a b := memory_zip (fun x y i => by simp [getbyte, BitVec.extractLsb'_xor]) a b
  view_not a := by
    apply Vector.ext; intro i hi
    show (memory (not a))[i] = _
    have h (x : U64) (k : Nat) (hk : k < 8) : getbyte (~~~x) k = ~~~ getbyte x k := by
      have := congrArg (fun v => v[k]) (toLe_not 8 x (by omega))
      simpa [getElem_toLe, getbyte] using this
    rw [memory_get]
    simp only [notB, Vector.getElem_map, memory_get, not]
    split
    · exact h _ _ (by omega)
    · exact h _ _ (by omega)

/-! ### rounds -/
theorem gb (x : U64) : getbyte x 0 = lw x 0 ∧ getbyte x 1 = lw x 1 ∧ getbyte x 2 = lw x 2 ∧ getbyte x 3 = lw x 3 ∧
    getbyte x 4 = hw x 0 ∧ getbyte x 5 = hw x 1 ∧ getbyte x 6 = hw x 2 ∧ getbyte x 7 = hw x 3 :=
  ⟨rfl, rfl, rfl, rfl, rfl, rfl, rfl, rfl⟩

theorem f4 : (0 : Fin 4) + 0 = 0 ∧ (0 : Fin 4) + 1 = 1 ∧ (0 : Fin 4) + 2 = 2 ∧ (0 : Fin 4) + 3 = 3 ∧
    (1 : Fin 4) + 0 = 1 ∧ (1 : Fin 4) + 1 = 2 ∧ (1 : Fin 4) + 2 = 3 ∧ (1 : Fin 4) + 3 = 0 ∧
    (2 : Fin 4) + 0 = 2 ∧ (2 : Fin 4) + 1 = 3 ∧ (2 : Fin 4) + 2 = 0 ∧ (2 : Fin 4) + 3 = 1 ∧
    (3 : Fin 4) + 0 = 3 ∧ (3 : Fin 4) + 1 = 0 ∧ (3 : Fin 4) + 2 = 1 ∧ (3 : Fin 4) + 3 = 2 := by decide
theorem s4 : (0 : Fin 4) - 0 = 0 ∧ (0 : Fin 4) - 1 = 3 ∧ (0 : Fin 4) - 2 = 2 ∧ (0 : Fin 4) - 3 = 1 ∧
    (1 : Fin 4) - 0 = 1 ∧ (1 : Fin 4) - 1 = 0 ∧ (1 : Fin 4) - 2 = 3 ∧ (1 : Fin 4) - 3 = 2 ∧
    (2 : Fin 4) - 0 = 2 ∧ (2 : Fin 4) - 1 = 1 ∧ (2 : Fin 4) - 2 = 0 ∧ (2 : Fin 4) - 3 = 3 ∧
    (3 : Fin 4) - 0 = 3 ∧ (3 : Fin 4) - 1 = 2 ∧ (3 : Fin 4) - 2 = 1 ∧ (3 : Fin 4) - 3 = 0 := by decide

theorem columns2_get {f : U8 → U8 → U8 → U8 → Vector U8 4} (b : Vector U8 8) :
    (columns2 f b)[0] = (f b[0] b[1] b[2] b[3])[0] ∧ (columns2 f b)[1] = (f b[0] b[1] b[2] b[3])[1] ∧
    (columns2 f b)[2] = (f b[0] b[1] b[2] b[3])[2] ∧ (columns2 f b)[3] = (f b[0] b[1] b[2] b[3])[3] ∧
    (columns2 f b)[4] = (f b[4] b[5] b[6] b[7])[0] ∧ (columns2 f b)[5] = (f b[4] b[5] b[6] b[7])[1] ∧
    (columns2 f b)[6] = (f b[4] b[5] b[6] b[7])[2] ∧ (columns2 f b)[7] = (f b[4] b[5] b[6] b[7])[3] := by
  unfold columns2
  exact ⟨Vector.getElem_append_left (by omega), Vector.getElem_append_left (by omega),
    Vector.getElem_append_left (by omega), Vector.getElem_append_left (by omega),
    Vector.getElem_append_right (by omega) (by omega), Vector.getElem_append_right (by omega) (by omega),
    Vector.getElem_append_right (by omega) (by omega), Vector.getElem_append_right (by omega) (by omega)⟩

theorem mixf (s0 s1 s2 s3 : U8) : mkW (mixcolumn_fwd s0 s1 s2 s3)[0] (mixcolumn_fwd s0 s1 s2 s3)[1]
    (mixcolumn_fwd s0 s1 s2 s3)[2] (mixcolumn_fwd s0 s1 s2 s3)[3] = mixWord (mkW s0 s1 s2 s3) := by
  apply word_eq <;> simp [mixcolumn_fwd, mixWord, mkW, f4] <;> try xor_norm
theorem mixi (s0 s1 s2 s3 : U8) : mkW (mixcolumn_inv s0 s1 s2 s3)[0] (mixcolumn_inv s0 s1 s2 s3)[1]
    (mixcolumn_inv s0 s1 s2 s3)[2] (mixcolumn_inv s0 s1 s2 s3)[3] = invMixWord (mkW s0 s1 s2 s3) := by
  apply word_eq <;> simp [mixcolumn_inv, invMixWord, mkW, f4] <;> try xor_norm

section
variable (a b : U64)
theorem lw_es : lw (aes64es a b) = mkW (sbox (lw a 0)) (sbox (hw a 1)) (sbox (lw b 2)) (sbox (hw b 3)) := by
  rw [aes64es, lw_fromLe]; simp [shiftrows_fwd, gb]
theorem hw_es : hw (aes64es a b) = mkW (sbox (hw a 0)) (sbox (lw b 1)) (sbox (hw b 2)) (sbox (lw a 3)) := by
  rw [aes64es, hw_fromLe]; simp [shiftrows_fwd, gb]
theorem lw_ds : lw (aes64ds a b) = mkW (invSbox (lw a 0)) (invSbox (hw b 1)) (invSbox (lw b 2)) (invSbox (hw a 3)) := by
  rw [aes64ds, lw_fromLe]; simp [shiftrows_inv, gb]
theorem hw_ds : hw (aes64ds a b) = mkW (invSbox (hw a 0)) (invSbox (lw a 1)) (invSbox (hw b 2)) (invSbox (lw b 3)) := by
  rw [aes64ds, hw_fromLe]; simp [shiftrows_inv, gb]
theorem lw_esm : lw (aes64esm a b) = mixWord (lw (aes64es a b)) := by
  rw [lw_es, aes64esm, lw_fromLe]; simp only [columns2_get, mixf]; simp [shiftrows_fwd, gb]
theorem hw_esm : hw (aes64esm a b) = mixWord (hw (aes64es a b)) := by
  rw [hw_es, aes64esm, hw_fromLe]; simp only [columns2_get, mixf]; simp [shiftrows_fwd, gb]
theorem lw_dsm : lw (aes64dsm a b) = invMixWord (lw (aes64ds a b)) := by
  rw [lw_ds, aes64dsm, lw_fromLe]; simp only [columns2_get, mixi]; simp [shiftrows_inv, gb]
theorem hw_dsm : hw (aes64dsm a b) = invMixWord (hw (aes64ds a b)) := by
  rw [hw_ds, aes64dsm, hw_fromLe]; simp only [columns2_get, mixi]; simp [shiftrows_inv, gb]
theorem mkW_eta (w : Word) : mkW (w 0) (w 1) (w 2) (w 3) = w := by apply word_eq <;> rfl
theorem lw_im : lw (aes64im a) = invMixWord (lw a) := by
  rw [aes64im, lw_fromLe]; simp only [columns2_get, mixi, getbyte_toLe, gb, mkW_eta]
theorem hw_im : hw (aes64im a) = invMixWord (hw a) := by
  rw [aes64im, hw_fromLe]; simp only [columns2_get, mixi, getbyte_toLe, gb, mkW_eta]
end

theorem view_mem (t : Block) : view t = memory t := rfl

instance : LawfulEnc Block where
  view_enc a k := by
    simp only [view_mem]
    apply bytes_ext
    apply fin4_cases <;> rw [kw_encRound, ← mkW_eta (fun r => sbox _)] <;>
      simp only [AesVec.enc, enc, f4, kwm0, kwm1, kwm2, kwm3, lw_xor, hw_xor, lw_esm, hw_esm, lw_es, hw_es]
  view_enc_last a k := by
    simp only [view_mem]
    apply bytes_ext
    apply fin4_cases <;> rw [kw_encLastRound, ← mkW_eta (fun r => sbox _)] <;>
      simp only [AesVec.enc_last, enc_last, f4, kwm0, kwm1, kwm2, kwm3, lw_xor, hw_xor, lw_es, hw_es]

instance : LawfulDec Block where
  view_dec a k := by
    simp only [view_mem]
    apply bytes_ext
    apply fin4_cases <;> rw [kw_decRound, ← mkW_eta (fun r => invSbox _)] <;>
      simp only [AesVec.dec, dec, s4, kwm0, kwm1, kwm2, kwm3, lw_xor, hw_xor, lw_dsm, hw_dsm, lw_ds, hw_ds]
  view_dec_last a k := by
    simp only [view_mem]
    apply bytes_ext
    apply fin4_cases <;> rw [kw_decLastRound, ← mkW_eta (fun r => invSbox _)] <;>
      simp only [AesVec.dec_last, dec_last, s4, kwm0, kwm1, kwm2, kwm3, lw_xor, hw_xor, lw_ds, hw_ds]
  view_mc a := by
    simp only [view_mem]
    apply bytes_ext
    apply fin4_cases <;> rw [kw_mixCols] <;>
      simp only [AesBlock.mc, mc, kwm0, kwm1, kwm2, kwm3, lw_esm, hw_esm, lw_es, hw_es, lw_ds, hw_ds, mkW, sbox_invSbox] <;>
      (refine congrArg mixWord ?_; exact mkW_eta _)
  view_imc a := by
    simp only [view_mem]
    apply bytes_ext
    apply fin4_cases <;> rw [kw_invMixCols] <;>
      simp only [AesBlock.imc, imc, kwm0, kwm1, kwm2, kwm3, lw_im, hw_im]

instance : LawfulPre Block where
  pre_enc_eq _ h := by cases h
  pre_dec_eq _ h := by cases h

/-! ### key schedule -/
theorem wordOf_lo (x : U64) : wordOf .little (x.extractLsb' 0 32) = lw x := by
  funext j
  simp only [wordOf, toNe, getElem_toLe, lw, getbyte]
  apply BitVec.eq_of_getLsbD_eq; intro k hk
  simp [hk, show 8 * j.val + k < 32 by omega]
theorem wordOf_hi (x : U64) : wordOf .little (x.extractLsb' 32 32) = hw x := by
  funext j
  simp only [wordOf, toNe, getElem_toLe, hw, getbyte]
  apply BitVec.eq_of_getLsbD_eq; intro k hk
  simp [hk, show 8 * j.val + k < 32 by omega, show 32 + (8 * j.val + k) = 8 * (4 + j.val) + k by omega]
theorem lw_append (a b : U32) : lw (a ++ b) = wordOf .little b := by
  rw [← wordOf_lo, show (a ++ b : U64).extractLsb' 0 32 = b from BitVec.extractLsb'_append_eq_right]
theorem hw_append (a b : U32) : hw (a ++ b) = wordOf .little a := by
  rw [← wordOf_hi, show (a ++ b : U64).extractLsb' 32 32 = a from BitVec.extractLsb'_append_eq_left]

/-- The doubleword holding two words. -/
def D (a b : Word) : U64 := ofWord .little b ++ ofWord .little a
theorem lw_D (a b : Word) : lw (D a b) = a := by rw [D, lw_append, wordOf_ofWord]
theorem hw_D (a b : Word) : hw (D a b) = b := by rw [D, hw_append, wordOf_ofWord]
theorem eq_D {x : U64} {a b : Word} (h0 : lw x = a) (h1 : hw x = b) : x = D a b :=
  u64_ext (h0.trans (lw_D a b).symm) (h1.trans (hw_D a b).symm)

theorem ks2_D (x : U64) (a b : Word) :
    aes64ks2 x (D a b) = D (Word.add a (hw x)) (Word.add b (Word.add a (hw x))) := by
  apply eq_D
  · rw [aes64ks2, lw_append, wordOf_xor, wordOf_hi, wordOf_lo, lw_D, Word.add_comm]
  · rw [aes64ks2, hw_append, wordOf_xor, wordOf_xor, wordOf_hi, wordOf_hi, wordOf_lo, lw_D, hw_D]
    rw [Word.add_comm, Word.add_comm (hw x) a]

theorem wordOf_subword (x : U32) : wordOf .little (subword_fwd x) = subWord (wordOf .little x) := by
  funext j
  simp only [wordOf, toNe, subword_fwd, toLe_fromLe 32 (n := 4) _ (by omega), Vector.getElem_map, subWord]
theorem wordOf_rotr8 (x : U32) : wordOf .little (x.rotateRight 8) = rotWord (wordOf .little x) := by
  apply word_eq <;> simp [wordOf, toNe, toLe, byte_rotateRight8, rotWord]

theorem ks1i_rot (x : U64) {r : Nat} {b : Byte} (hr : r ≠ 10) (hb : rcon (r + 1) = rconW b)
    (hd : wordOf .little (decode_rcon r) = rconW b) :
    hw (aes64ks1i x r) = Word.add (subWord (rotWord (hw x))) (rcon (r + 1)) := by
  rw [aes64ks1i, hw_append, wordOf_xor, wordOf_subword, if_neg hr, wordOf_rotr8, wordOf_hi, hb, hd]
theorem ks1i_10 (x : U64) : hw (aes64ks1i x 10) = subWord (hw x) := by
  rw [aes64ks1i, hw_append, wordOf_xor, wordOf_subword, if_pos rfl, wordOf_hi]
  funext j
  show _ ^^^ wordOf .little (decode_rcon 10) j = _
  rw [show wordOf .little (decode_rcon 10) j = 0#8 by
    revert j; apply fin4_cases <;> decide +kernel]
  simp

/-- The round constants of `aes64ks1i` are those of FIPS-197. -/
theorem ks1i_ok (x : U64) {r : Nat} (hr : r < 10) :
    hw (aes64ks1i x r) = Word.add (subWord (rotWord (hw x))) (rcon (r + 1)) := by
  obtain ⟨r1, r2, r3, r4, r5, r6, r7, r8, r9, r10⟩ := rcon_vals
  have h : ∀ (r : Nat) (b : Byte), r ≠ 10 → rcon (r + 1) = rconW b → wordOf .little (decode_rcon r) = rconW b →
      hw (aes64ks1i x r) = Word.add (subWord (rotWord (hw x))) (rcon (r + 1)) := fun r b => ks1i_rot x
  have d (r : Nat) (b : Byte) (h : wordOf .little (decode_rcon r) 0 = b ∧ wordOf .little (decode_rcon r) 1 = 0 ∧
      wordOf .little (decode_rcon r) 2 = 0 ∧ wordOf .little (decode_rcon r) 3 = 0) :
      wordOf .little (decode_rcon r) = rconW b := by
    apply word_eq
    · exact h.1
    · exact h.2.1
    · exact h.2.2.1
    · exact h.2.2.2
  match r, hr with
  | 0, _ => exact h _ _ (by decide) r1 (d _ _ (by decide +kernel))
  | 1, _ => exact h _ _ (by decide) r2 (d _ _ (by decide +kernel))
  | 2, _ => exact h _ _ (by decide) r3 (d _ _ (by decide +kernel))
  | 3, _ => exact h _ _ (by decide) r4 (d _ _ (by decide +kernel))
  | 4, _ => exact h _ _ (by decide) r5 (d _ _ (by decide +kernel))
  | 5, _ => exact h _ _ (by decide) r6 (d _ _ (by decide +kernel))
  | 6, _ => exact h _ _ (by decide) r7 (d _ _ (by decide +kernel))
  | 7, _ => exact h _ _ (by decide) r8 (d _ _ (by decide +kernel))
  | 8, _ => exact h _ _ (by decide) r9 (d _ _ (by decide +kernel))
  | 9, _ => exact h _ _ (by decide) r10 (d _ _ (by decide +kernel))

/-- Doubleword `k` of a schedule. -/
def DW (w : Nat → Word) (k : Nat) : U64 := D (w (2 * k)) (w (2 * k + 1))
def RK (w : Nat → Word) (r : Nat) : Block := ⟨DW w (2 * r), DW w (2 * r + 1)⟩

theorem ofB_rkb (w : Nat → Word) (r : Nat) : ofB' (roundKeyBytes w r) = RK w r := by
  apply block_ext
  rw [memory_ofB]
  symm
  apply eq_roundKeyBytes
  · rw [kwm0, RK, DW, lw_D]; congr 1; omega
  · rw [kwm1, RK, DW, hw_D]; congr 1; omega
  · rw [kwm2, RK, DW, DW, lw_D]; congr 1; omega
  · rw [kwm3, RK, DW, DW, hw_D]; congr 1; omega

section
variable {n : Nat} (nk2 : Nat) (key : Vector Byte n)

/-- First doubleword of group `g + 1` (`nk = 2 * nk2`). -/
theorem dw_first (g : Nat) (h : 1 < nk2) (hg : g < 10) :
    aes64ks2 (aes64ks1i (DW (keyExpansion (2 * nk2) key) (nk2 * g + (nk2 - 1))) g)
      (DW (keyExpansion (2 * nk2) key) (nk2 * g)) = DW (keyExpansion (2 * nk2) key) (nk2 * (g + 1)) := by
  have e0 := keyExpansion_first (2 * nk2) key g (by omega)
  have e1 := keyExpansion_rest (2 * nk2) key g 0 (by omega) (by omega)
  rw [DW, DW, ks2_D, ks1i_ok _ hg, hw_D, DW]
  rw [show 2 * (nk2 * g + (nk2 - 1)) + 1 = 2 * nk2 * g + (2 * nk2 - 1) by rw [Nat.mul_add, ← Nat.mul_assoc]; omega,
    ← Nat.mul_assoc, ← Nat.mul_assoc, ← e0]
  congr 1
  exact e1.symm

/-- The other doublewords of a group. -/
theorem dw_rest (g j : Nat) (hj : j + 1 < nk2) (h4 : 2 * nk2 > 6 → j ≠ 1) :
    aes64ks2 (DW (keyExpansion (2 * nk2) key) (nk2 * (g + 1) + j))
      (DW (keyExpansion (2 * nk2) key) (nk2 * g + (j + 1))) =
      DW (keyExpansion (2 * nk2) key) (nk2 * (g + 1) + (j + 1)) := by
  have e0 := keyExpansion_rest (2 * nk2) key g (2 * j + 1) (by omega) (by omega)
  have e1 := keyExpansion_rest (2 * nk2) key g (2 * j + 2) (by omega) (by omega)
  have i0 : 2 * (nk2 * (g + 1) + j) + 1 = 2 * nk2 * (g + 1) + (2 * j + 1) := by
    rw [Nat.mul_add, ← Nat.mul_assoc]; omega
  have i1 (x : Nat) : 2 * (nk2 * x + (j + 1)) = 2 * nk2 * x + (2 * j + 1 + 1) := by
    rw [Nat.mul_add, ← Nat.mul_assoc]; omega
  rw [DW, DW, ks2_D, hw_D, DW, i0, i1, i1, ← e0]
  congr 1
  exact e1.symm

/-- Third doubleword of a group, for `nk = 8`. -/
theorem dw_fifth (g : Nat) (h : 3 < nk2) :
    aes64ks2 (aes64ks1i (DW (keyExpansion (2 * nk2) key) (nk2 * (g + 1) + 1)) 10)
      (DW (keyExpansion (2 * nk2) key) (nk2 * g + 2)) =
      DW (keyExpansion (2 * nk2) key) (nk2 * (g + 1) + 2) := by
  have e0 := keyExpansion_fifth (2 * nk2) key g (by omega)
  have e1 := keyExpansion_rest (2 * nk2) key g 4 (by omega) (by omega)
  have i0 : 2 * (nk2 * (g + 1) + 1) + 1 = 2 * nk2 * (g + 1) + 3 := by
    rw [Nat.mul_add, ← Nat.mul_assoc]
  have i1 (x : Nat) : 2 * (nk2 * x + 2) = 2 * nk2 * x + 4 := by
    rw [Nat.mul_add, ← Nat.mul_assoc]
  rw [DW, DW, ks2_D, ks1i_10, hw_D, DW, i0, i1, i1, ← e0]
  congr 1
  exact e1.symm
end

theorem keyexp_128_ok (key : Vector Byte 16) (r : Nat) (hr : r < 10) :
    keyexp_128 r (RK (keyExpansion 4 key) r) = RK (keyExpansion 4 key) (r + 1) := by
  have e0 := dw_first 2 key r (by omega) hr
  have e1 := dw_rest 2 key r 0 (by omega) (by omega)
  simp only [Nat.reduceMul, Nat.reduceSub, Nat.add_zero, Nat.zero_add] at e0 e1
  simp only [keyexp_128, RK, e0, e1]

theorem keyexp_256_1_ok (key : Vector Byte 32) (g : Nat) (hr : g < 10) :
    keyexp_256_1 g (RK (keyExpansion 8 key) (2 * g)) (RK (keyExpansion 8 key) (2 * g + 1))
      = RK (keyExpansion 8 key) (2 * g + 2) := by
  have e0 := dw_first 4 key g (by omega) hr
  have e1 := dw_rest 4 key g 0 (by omega) (by omega)
  simp only [Nat.reduceMul, Nat.reduceSub, Nat.add_zero, Nat.zero_add] at e0 e1
  simp only [keyexp_256_1, RK, show 2 * (2 * g) = 4 * g by omega, show 2 * (2 * g + 1) + 1 = 4 * g + 3 by omega,
    show 2 * (2 * g + 2) = 4 * (g + 1) by omega, e0, e1]

theorem keyexp_256_2_ok (key : Vector Byte 32) (g : Nat) :
    keyexp_256_2 (RK (keyExpansion 8 key) (2 * g + 1)) (RK (keyExpansion 8 key) (2 * g + 2))
      = RK (keyExpansion 8 key) (2 * g + 3) := by
  have e0 := dw_fifth 4 key g (by omega)
  have e1 := dw_rest 4 key g 2 (by omega) (by omega)
  simp only [Nat.reduceMul, Nat.reduceAdd] at e0 e1
  simp only [keyexp_256_2, RK, show 2 * (2 * g + 1) = 4 * g + 2 by omega, Nat.add_assoc, Nat.reduceAdd,
    show 2 * (2 * g + 2) + 1 = 4 * (g + 1) + 1 by omega,
    show 2 * (2 * g + 3) = 4 * (g + 1) + 2 by omega, e0, e1]

/-- Group `g` of the 192-bit schedule. -/
def G3 (w : Nat → Word) (g : Nat) : U64 × U64 × U64 := (DW w (3 * g), DW w (3 * g + 1), DW w (3 * g + 2))

theorem keyexp_192_ok (key : Vector Byte 24) (g : Nat) (hr : g < 10) :
    keyexp_192 g (G3 (keyExpansion 6 key) g) = G3 (keyExpansion 6 key) (g + 1) := by
  have e0 := dw_first 3 key g (by omega) hr
  have e1 := dw_rest 3 key g 0 (by omega) (by omega)
  have e2 := dw_rest 3 key g 1 (by omega) (by omega)
  simp only [Nat.reduceMul, Nat.reduceSub, Nat.add_zero, Nat.zero_add, Nat.reduceAdd] at e0 e1 e2
  simp only [keyexp_192, G3, e0, e1, e2]

theorem load_u64_ok (key : Vector Byte 24) (k : Nat) (h : k < 3) :
    load_u64 key.toList (8 * k) = .ok (DW (keyExpansion 6 key) k) := by
  unfold load_u64
  rw [sliceTo_ok _ _ (by simp; omega), bind_ok, sliceFrom_ok _ _ (by simp; omega), bind_ok]
  rw [arrayTryFrom_ok _ (by simp; omega), bind_ok, pure_ok]
  refine congrArg Except.ok ?_
  apply eq_D
  · rw [lw_fromLe]
    apply word_eq <;> rw [keyExpansion_init 6 key (by omega), wordAt_eq key _ (by omega)] <;>
      simp only [mkW, Vector.getElem_mk, List.getElem_toArray, List.getElem_drop, List.getElem_take, Vector.getElem_toList] <;>
      (congr 1; simp; omega)
  · rw [hw_fromLe]
    apply word_eq <;> rw [keyExpansion_init 6 key (by omega), wordAt_eq key _ (by omega)] <;>
      simp only [mkW, Vector.getElem_mk, List.getElem_toArray, List.getElem_drop, List.getElem_take, Vector.getElem_toList] <;>
      (congr 1; simp; omega)

/-- The shape of the three schedules, for arbitrary step functions. -/
theorem shape11 {α : Type} (f : Nat → α → α) (K : Nat → α) (step : ∀ r, r < 10 → f r (K r) = K (r + 1)) :
    (do
      let key0 ← (.ok (K 0) : M α)
      let key1 := f 0 key0
      let key2 := f 1 key1
      let key3 := f 2 key2
      let key4 := f 3 key3
      let key5 := f 4 key4
      let key6 := f 5 key5
      let key7 := f 6 key6
      let key8 := f 7 key7
      let key9 := f 8 key8
      let key10 := f 9 key9
      pure #v[key0, key1, key2, key3, key4, key5, key6, key7, key8, key9, key10] : M (Vector α 11))
      = .ok (Vector.ofFn fun r => K r) := by
  have s1 : f 0 (K 0) = K 1 := step 0 (by omega)
  have s2 : f 1 (K 1) = K 2 := step 1 (by omega)
  have s3 : f 2 (K 2) = K 3 := step 2 (by omega)
  have s4 : f 3 (K 3) = K 4 := step 3 (by omega)
  have s5 : f 4 (K 4) = K 5 := step 4 (by omega)
  have s6 : f 5 (K 5) = K 6 := step 5 (by omega)
  have s7 : f 6 (K 6) = K 7 := step 6 (by omega)
  have s8 : f 7 (K 7) = K 8 := step 7 (by omega)
  have s9 : f 8 (K 8) = K 9 := step 8 (by omega)
  have s10 : f 9 (K 9) = K 10 := step 9 (by omega)
  simp only [bind_ok, s1, s2, s3, s4, s5, s6, s7, s8, s9, s10, pure_ok]
  exact congrArg Except.ok (lit11 K)

theorem keygen_128_ok (key : Vector Byte 16) :
    keygen_128 key = .ok (Vector.ofFn fun r => ofB' (roundKeyBytes (keyExpansion 4 key) r)) := by
  simp only [ofB_rkb]
  have e0 : from_bytes key = .ok (RK (keyExpansion 4 key) 0) := by
    rw [← ofB_rkb, ← ke128_init]; rfl
  have step := keyexp_128_ok key
  unfold keygen_128
  rw [e0]
  exact shape11 keyexp_128 _ step

theorem shape15 {α : Type} (f : Nat → α → α → α) (h : α → α → α) (K : Nat → α)
    (s1 : ∀ g, g < 10 → f g (K (2 * g)) (K (2 * g + 1)) = K (2 * g + 2))
    (s2 : ∀ g, h (K (2 * g + 1)) (K (2 * g + 2)) = K (2 * g + 3)) :
    (let key0 := K 0
      let key1 := K 1
      let key2 := f 0 key0 key1
      let key3 := h key1 key2
      let key4 := f 1 key2 key3
      let key5 := h key3 key4
      let key6 := f 2 key4 key5
      let key7 := h key5 key6
      let key8 := f 3 key6 key7
      let key9 := h key7 key8
      let key10 := f 4 key8 key9
      let key11 := h key9 key10
      let key12 := f 5 key10 key11
      let key13 := h key11 key12
      let key14 := f 6 key12 key13
      pure #v[key0, key1, key2, key3, key4, key5, key6, key7, key8, key9, key10, key11, key12, key13, key14]
      : M (Vector α 15)) = .ok (Vector.ofFn fun r => K r) := by
  have a0 : f 0 (K 0) (K 1) = K 2 := s1 0 (by omega)
  have a1 : f 1 (K 2) (K 3) = K 4 := s1 1 (by omega)
  have a2 : f 2 (K 4) (K 5) = K 6 := s1 2 (by omega)
  have a3 : f 3 (K 6) (K 7) = K 8 := s1 3 (by omega)
  have a4 : f 4 (K 8) (K 9) = K 10 := s1 4 (by omega)
  have a5 : f 5 (K 10) (K 11) = K 12 := s1 5 (by omega)
  have a6 : f 6 (K 12) (K 13) = K 14 := s1 6 (by omega)
  have b0 : h (K 1) (K 2) = K 3 := s2 0
  have b1 : h (K 3) (K 4) = K 5 := s2 1
  have b2 : h (K 5) (K 6) = K 7 := s2 2
  have b3 : h (K 7) (K 8) = K 9 := s2 3
  have b4 : h (K 9) (K 10) = K 11 := s2 4
  have b5 : h (K 11) (K 12) = K 13 := s2 5
  simp only [a0, a1, a2, a3, a4, a5, a6, b0, b1, b2, b3, b4, b5, pure_ok]
  exact congrArg Except.ok (lit15 K)

theorem keygen_256_ok (key : Vector Byte 32) :
    keygen_256 key = .ok (Vector.ofFn fun r => ofB' (roundKeyBytes (keyExpansion 8 key) r)) := by
  simp only [ofB_rkb]
  have e0 : ofB' (slice key 0 16 (by omega)) = RK (keyExpansion 8 key) 0 := by
    rw [← ofB_rkb, ← ke256_init0]
  have e1 : ofB' (slice key 16 16 (by omega)) = RK (keyExpansion 8 key) 1 := by
    rw [← ofB_rkb, ← ke256_init1]
  have fb : ∀ v, from_bytes v = .ok (ofB' v) := fun _ => rfl
  have t0 := try_from_lo fb key (by omega)
  have t1 := try_from_hi fb key
  rw [e0] at t0
  rw [e1] at t1
  unfold keygen_256
  rw [sliceTo_ok _ _ (by simp)] at t0 ⊢
  rw [sliceFrom_ok _ _ (by simp)] at t1 ⊢
  rw [bind_ok] at t0 t1 ⊢
  rw [bind_of_bind_ok t0]
  rw [bind_ok, bind_of_bind_ok t1]
  exact shape15 keyexp_256_1 keyexp_256_2 _ (keyexp_256_1_ok key) (keyexp_256_2_ok key)

theorem shape13 (f : Nat → U64 × U64 × U64 → U64 × U64 × U64) (h : U64 → U64 → U64) (h' : U64 → Nat → U64)
    (w : Nat → U64) (G : Nat → U64 × U64 × U64)
    (hG : ∀ g, G g = (w (3 * g), w (3 * g + 1), w (3 * g + 2)))
    (step : ∀ g, g < 10 → f g (G g) = G (g + 1))
    (f0 : h (h' (w 23) 7) (w 21) = w 24) (f1 : h (w 24) (w 22) = w 25) (l0 l1 l2 : M U64)
    (hl0 : l0 = .ok (w 0)) (hl1 : l1 = .ok (w 1)) (hl2 : l2 = .ok (w 2)) :
    (do
      let state0 := (← l0, ← l1, ← l2)
      let state1 := f 0 state0
      let state2 := f 1 state1
      let state3 := f 2 state2
      let state4 := f 3 state3
      let state5 := f 4 state4
      let state6 := f 5 state5
      let state7 := f 6 state6
      let state24 := h (h' state7.2.2 7) state7.1
      let state25 := h state24 state7.2.1
      pure #v[⟨state0.1, state0.2.1⟩, ⟨state0.2.2, state1.1⟩, ⟨state1.2.1, state1.2.2⟩,
        ⟨state2.1, state2.2.1⟩, ⟨state2.2.2, state3.1⟩, ⟨state3.2.1, state3.2.2⟩,
        ⟨state4.1, state4.2.1⟩, ⟨state4.2.2, state5.1⟩, ⟨state5.2.1, state5.2.2⟩,
        ⟨state6.1, state6.2.1⟩, ⟨state6.2.2, state7.1⟩, ⟨state7.2.1, state7.2.2⟩,
        ⟨state24, state25⟩] : M (Vector Block 13))
      = .ok (Vector.ofFn fun r => ⟨w (2 * r), w (2 * r + 1)⟩) := by
  subst hl0 hl1 hl2
  have s1 : f 0 (G 0) = G 1 := step 0 (by omega)
  have s2 : f 1 (G 1) = G 2 := step 1 (by omega)
  have s3 : f 2 (G 2) = G 3 := step 2 (by omega)
  have s4 : f 3 (G 3) = G 4 := step 3 (by omega)
  have s5 : f 4 (G 4) = G 5 := step 4 (by omega)
  have s6 : f 5 (G 5) = G 6 := step 5 (by omega)
  have s7 : f 6 (G 6) = G 7 := step 6 (by omega)
  have i0 : (w 0, w 1, w 2) = G 0 := (hG 0).symm
  simp only [bind_ok, i0, s1, s2, s3, s4, s5, s6, s7]
  simp only [hG, Nat.reduceMul, Nat.reduceAdd, f0, f1, pure_ok]
  exact congrArg Except.ok (lit13 fun r => (⟨w (2 * r), w (2 * r + 1)⟩ : Block))

theorem keygen_192_ok (key : Vector Byte 24) :
    keygen_192 key = .ok (Vector.ofFn fun r => ofB' (roundKeyBytes (keyExpansion 6 key) r)) := by
  simp only [ofB_rkb]
  have f0 := dw_first 3 key 7 (by omega) (by omega)
  have f1 := dw_rest 3 key 7 0 (by omega) (by omega)
  unfold keygen_192
  exact shape13 keyexp_192 aes64ks2 aes64ks1i (DW (keyExpansion 6 key)) (G3 (keyExpansion 6 key)) (fun _ => rfl)
    (keyexp_192_ok key) f0 f1 _ _ _ (load_u64_ok key 0 (by omega)) (load_u64_ok key 1 (by omega))
    (load_u64_ok key 2 (by omega))

instance : LawfulKeygen Block where
  keygen_128_eq := keygen_128_ok
  keygen_192_eq := keygen_192_ok
  keygen_256_eq := keygen_256_ok

end Aes.Riscv64
