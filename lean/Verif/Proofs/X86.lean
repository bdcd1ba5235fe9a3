import Verif.Model.X86
import Verif.Proofs.SpecLemmas
import Verif.Proofs.KeySched
/-! src/aes_x86.rs satisfies the laws. -/
namespace Aes.X86
open Rust AesSpec Fips197 IsaX86

theorem xor_eq {n} (a b : Vector U8 n) : xor a b = xorB a b := rfl

theorem testz_self {n} (a : Vector U8 n) : (testz a a == 1) = decide (a = zeroB n) := by
  unfold testz
  have h : ((IsaX86.and a a).all (· == 0#8)) = decide (a = zeroB n) := by
    rw [Bool.eq_iff_iff]
    simp only [Vector.all_eq_true, decide_eq_true_eq, IsaX86.and, Vector.getElem_zipWith, BitVec.and_self,
      beq_iff_eq]
    constructor
    · intro h; apply Vector.ext; intro i hi; simp [h i hi, zeroB]
    · rintro rfl i hi; simp [zeroB]
  rw [h]
  by_cases hz : a = zeroB n <;> simp [hz]

theorem xor_minus1 {n} (a : Vector U8 n) : xor a set1_minus1 = notB a := by
  apply Vector.ext; intro i hi
  simp only [IsaX86.xor, set1_minus1, notB, Vector.getElem_zipWith, Vector.getElem_replicate, Vector.getElem_map]
  exact BitVec.xor_allOnes

theorem storeu_ok {n : Nat} (v : Vector U8 n) (dst : List U8) (h : n ≤ dst.length) :
    (do assert (decide (dst.length ≥ n)); storeu dst v) = .ok (v.toList ++ dst.drop n) := by
  rw [assert_ge h]; exact rawWrite_ok dst v h
theorem storeu_short {n : Nat} (v : Vector U8 n) (dst : List U8) (h : dst.length < n) :
    (do assert (decide (dst.length ≥ n)); storeu dst v) = .error .panic := by
  rw [assert_ge_not h]; rfl
theorem loadu_eq {n : Nat} (v : Vector U8 n) : loadu n v.toList = .ok v := rawRead_all v

theorem from_bytes_ok (v : Vector U8 16) : from_bytes v = .ok ⟨v⟩ := by
  unfold from_bytes; rw [loadu_eq]; rfl

instance : LawfulVec Block where
  view := Block.val
  ofB := Block.mk
  view_ofB _ := rfl
  ofB_view _ := rfl
  new_eq _ := rfl
  from_bytes_eq := from_bytes_ok
  store_to_ok t dst h := storeu_ok t.val dst h
  store_to_short t dst h := storeu_short t.val dst h
  view_zero := rfl
  is_zero_eq t := testz_self t.val
  eq_eq a b := by
    show (testz (xor a.val b.val) (xor a.val b.val) == 1) = _
    rw [testz_self, xor_eq]
    simp only [xorB_eq_zero]
  view_and _ _ := rfl
  view_or _ _ := rfl
  view_xor _ _ := rfl
  view_not a := xor_minus1 a.val

theorem aesenc_eq (a k : M128i) : aesenc a k = encRound a k := by rw [encRound_eq]; rfl
theorem aesenclast_eq (a k : M128i) : aesenclast a k = encLastRound a k := by rw [encLastRound_eq]; rfl
theorem aesdec_eq (a k : M128i) : aesdec a k = decRound a k := by rw [decRound_eq]; rfl
theorem aesdeclast_eq (a k : M128i) : aesdeclast a k = decLastRound a k := by rw [decLastRound_eq]; rfl

instance : LawfulEnc Block where
  view_enc _ _ := aesenc_eq _ _
  view_enc_last _ _ := aesenclast_eq _ _

instance : LawfulDec Block where
  view_dec _ _ := aesdec_eq _ _
  view_dec_last _ _ := aesdeclast_eq _ _
  view_mc a := by
    show aesenc (aesdeclast a.val setzero) setzero = _
    show xor _ (zeroB 16) = _
    simp only [aesdeclast, xor_eq, show (setzero : M128i) = zeroB 16 from rfl, xorB_zero,
      ofBytes_toBytes]
    rw [subBytes_shiftRows, subBytes_invSubBytes, shiftRows_invShiftRows]
    rfl
  view_imc a := rfl

instance : LawfulPre Block where
  pre_enc_eq p h := by cases h
  pre_dec_eq p h := by cases h

/-! ### key schedule -/

theorem add_comm' (a b : Word) : Word.add a b = Word.add b a := Word.add_comm a b

theorem kw_xor (a b : M128i) (c : Fin 4) : keyWords (xor a b) c = Word.add (keyWords a c) (keyWords b c) := by
  funext j; simp [keyWords, IsaX86.xor, Word.add]


theorem kw_bslli4 (v : M128i) :
    keyWords (bslli 4 v) 0 = (fun _ => 0#8) ∧ keyWords (bslli 4 v) 1 = keyWords v 0 ∧
    keyWords (bslli 4 v) 2 = keyWords v 1 ∧ keyWords (bslli 4 v) 3 = keyWords v 2 := by
  refine ⟨?_, ?_, ?_, ?_⟩ <;> funext j <;> (match j with | 0 | 1 | 2 | 3 => simp [keyWords, bslli])
theorem kw_bslli8 (v : M128i) :
    keyWords (bslli 8 v) 0 = (fun _ => 0#8) ∧ keyWords (bslli 8 v) 1 = (fun _ => 0#8) ∧
    keyWords (bslli 8 v) 2 = keyWords v 0 ∧ keyWords (bslli 8 v) 3 = keyWords v 1 := by
  refine ⟨?_, ?_, ?_, ?_⟩ <;> funext j <;> (match j with | 0 | 1 | 2 | 3 => simp [keyWords, bslli])

theorem add_zeroW (a : Word) : Word.add a (fun _ => 0#8) = a := by funext i; simp [Word.add]

/-- Words of `mix v`: prefix sums. -/
theorem kw_mix (v : M128i) :
    keyWords (mix v) 0 = keyWords v 0 ∧ keyWords (mix v) 1 = Word.add (keyWords v 1) (keyWords v 0) ∧
    keyWords (mix v) 2 = Word.add (keyWords v 2) (Word.add (keyWords v 1) (keyWords v 0)) ∧
    keyWords (mix v) 3 = Word.add (keyWords v 3) (Word.add (keyWords v 2) (Word.add (keyWords v 1) (keyWords v 0))) := by
  obtain ⟨a0, a1, a2, a3⟩ := kw_bslli4 v
  obtain ⟨b0, b1, b2, b3⟩ := kw_bslli8 (IsaX86.xor v (bslli 4 v))
  simp only [mix, kw_xor, a0, a1, a2, a3, b0, b1, b2, b3, add_zeroW, Word.add_assoc, and_self]

theorem kw_shuffle_ff (a : M128i) (c : Fin 4) : keyWords (shuffle_epi32 0xff a) c = keyWords a 3 := by
  funext j
  match c, j with
  | 0, 0 | 0, 1 | 0, 2 | 0, 3 | 1, 0 | 1, 1 | 1, 2 | 1, 3 | 2, 0 | 2, 1 | 2, 2 | 2, 3 | 3, 0 | 3, 1 | 3, 2 | 3, 3 =>
    simp [keyWords, shuffle_epi32]
theorem kw_shuffle_aa (a : M128i) (c : Fin 4) : keyWords (shuffle_epi32 0xaa a) c = keyWords a 2 := by
  funext j
  match c, j with
  | 0, 0 | 0, 1 | 0, 2 | 0, 3 | 1, 0 | 1, 1 | 1, 2 | 1, 3 | 2, 0 | 2, 1 | 2, 2 | 2, 3 | 3, 0 | 3, 1 | 3, 2 | 3, 3 =>
    simp [keyWords, shuffle_epi32]
theorem kw_shuffle_55 (a : M128i) (c : Fin 4) : keyWords (shuffle_epi32 0x55 a) c = keyWords a 1 := by
  funext j
  match c, j with
  | 0, 0 | 0, 1 | 0, 2 | 0, 3 | 1, 0 | 1, 1 | 1, 2 | 1, 3 | 2, 0 | 2, 1 | 2, 2 | 2, 3 | 3, 0 | 3, 1 | 3, 2 | 3, 3 =>
    simp [keyWords, shuffle_epi32]

theorem kw_keygenassist (rc : U8) (a : M128i) :
    keyWords (aeskeygenassist rc a) 1 = Word.add (subWord (rotWord (keyWords a 1))) (rconW rc) ∧
    keyWords (aeskeygenassist rc a) 2 = subWord (keyWords a 3) ∧
    keyWords (aeskeygenassist rc a) 3 = Word.add (subWord (rotWord (keyWords a 3))) (rconW rc) := by
  refine ⟨?_, ?_, ?_⟩ <;> funext j <;>
    (match j with
     | 0 | 1 | 2 | 3 => simp [keyWords, aeskeygenassist, Word.add, subWord, rotWord, rconW])

/-- A schedule step `mix(prev0) ^ broadcast(t)` in terms of words. -/
theorem kw_step (p q : M128i) (t : Word) (hq : ∀ c, keyWords q c = t) :
    keyWords (xor (mix p) q) 0 = Word.add (keyWords p 0) t ∧
    keyWords (xor (mix p) q) 1 = Word.add (keyWords p 1) (keyWords (xor (mix p) q) 0) ∧
    keyWords (xor (mix p) q) 2 = Word.add (keyWords p 2) (keyWords (xor (mix p) q) 1) ∧
    keyWords (xor (mix p) q) 3 = Word.add (keyWords p 3) (keyWords (xor (mix p) q) 2) := by
  obtain ⟨h0, h1, h2, h3⟩ := kw_mix p
  simp only [kw_xor, hq, h0, h1, h2, h3, Word.add_assoc, and_self]

theorem keyexp_128_ok (key : Vector Byte 16) (r : Nat) (p : Block) (b : Byte) (hb : rcon (r + 1) = rconW b)
    (hp : p.val = roundKeyBytes (keyExpansion 4 key) r) :
    (keyexp_128 b p).val = roundKeyBytes (keyExpansion 4 key) (r + 1) := by
  obtain ⟨h0, h1, h2, h3⟩ := kw_step p.val (shuffle_epi32 0xff (aeskeygenassist b p.val)) _
    (fun c => by rw [kw_shuffle_ff, (kw_keygenassist b p.val).2.2])
  exact ke128_step key r hb hp h0 h1 h2 h3

theorem keyexp_256_1_ok (key : Vector Byte 32) (g : Nat) (p q : Block) (b : Byte) (hb : rcon (g + 1) = rconW b)
    (hp : p.val = roundKeyBytes (keyExpansion 8 key) (2 * g))
    (hq : q.val = roundKeyBytes (keyExpansion 8 key) (2 * g + 1)) :
    (keyexp_256_1 b p q).val = roundKeyBytes (keyExpansion 8 key) (2 * g + 2) := by
  obtain ⟨h0, h1, h2, h3⟩ := kw_step p.val (shuffle_epi32 0xff (aeskeygenassist b q.val)) _
    (fun c => by rw [kw_shuffle_ff, (kw_keygenassist b q.val).2.2])
  exact ke256_step1 key g hb hp hq h0 h1 h2 h3

theorem keyexp_256_2_ok (key : Vector Byte 32) (g : Nat) (p q : Block)
    (hp : p.val = roundKeyBytes (keyExpansion 8 key) (2 * g + 1))
    (hq : q.val = roundKeyBytes (keyExpansion 8 key) (2 * g + 2)) :
    (keyexp_256_2 p q).val = roundKeyBytes (keyExpansion 8 key) (2 * g + 3) := by
  obtain ⟨h0, h1, h2, h3⟩ := kw_step p.val (shuffle_epi32 0xaa (aeskeygenassist 0 q.val)) _
    (fun c => by rw [kw_shuffle_aa, (kw_keygenassist 0 q.val).2.1])
  exact ke256_step2 key g hp hq h0 h1 h2 h3

theorem keygen_128_ok (key : Vector Byte 16) :
    keygen_128 key = .ok (Vector.ofFn fun r => ⟨roundKeyBytes (keyExpansion 4 key) r⟩) := by
  obtain ⟨r1, r2, r3, r4, r5, r6, r7, r8, r9, r10⟩ := rcon_vals
  obtain ⟨K, hK⟩ : ∃ K : Nat → Block, K = fun r => ⟨roundKeyBytes (keyExpansion 4 key) r⟩ := ⟨_, rfl⟩
  have e0 : (⟨key⟩ : Block) = K 0 := by rw [hK]; simp only [← ke128_init]
  have step (r : Nat) (b : Byte) (hb : rcon (r + 1) = rconW b) : keyexp_128 b (K r) = K (r + 1) := by
    rw [hK]
    exact congrArg Block.mk (keyexp_128_ok key r ⟨roundKeyBytes (keyExpansion 4 key) r⟩ b hb rfl)
  have s1 : keyexp_128 0x01 (K 0) = K 1 := step 0 _ r1
  have s2 : keyexp_128 0x02 (K 1) = K 2 := step 1 _ r2
  have s3 : keyexp_128 0x04 (K 2) = K 3 := step 2 _ r3
  have s4 : keyexp_128 0x08 (K 3) = K 4 := step 3 _ r4
  have s5 : keyexp_128 0x10 (K 4) = K 5 := step 4 _ r5
  have s6 : keyexp_128 0x20 (K 5) = K 6 := step 5 _ r6
  have s7 : keyexp_128 0x40 (K 6) = K 7 := step 6 _ r7
  have s8 : keyexp_128 0x80 (K 7) = K 8 := step 7 _ r8
  have s9 : keyexp_128 0x1b (K 8) = K 9 := step 8 _ r9
  have s10 : keyexp_128 0x36 (K 9) = K 10 := step 9 _ r10
  have hR : (Vector.ofFn fun r : Fin 11 => (⟨roundKeyBytes (keyExpansion 4 key) r⟩ : Block)) = Vector.ofFn fun r => K r := by
    rw [hK]
  rw [hR]; clear hR hK step
  unfold keygen_128
  rw [from_bytes_ok]
  simp only [bind_ok, e0, s1, s2, s3, s4, s5, s6, s7, s8, s9, s10, pure_ok]
  refine congrArg Except.ok ?_
  apply ext_ofFn; intro i
  match i with
  | 0 | 1 | 2 | 3 | 4 | 5 | 6 | 7 | 8 | 9 | 10 => rfl

theorem keygen_256_ok (key : Vector Byte 32) :
    keygen_256 key = .ok (Vector.ofFn fun r => ⟨roundKeyBytes (keyExpansion 8 key) r⟩) := by
  obtain ⟨r1, r2, r3, r4, r5, r6, r7, r8, r9, r10⟩ := rcon_vals
  obtain ⟨K, hK⟩ : ∃ K : Nat → Block, K = fun r => ⟨roundKeyBytes (keyExpansion 8 key) r⟩ := ⟨_, rfl⟩
  have e0 : (⟨slice key 0 16 (by omega)⟩ : Block) = K 0 := by rw [hK]; simp only [ke256_init0]
  have e1 : (⟨slice key 16 16 (by omega)⟩ : Block) = K 1 := by rw [hK]; simp only [ke256_init1]
  have s1 (g : Nat) (b : Byte) (hb : rcon (g + 1) = rconW b) :
      keyexp_256_1 b (K (2 * g)) (K (2 * g + 1)) = K (2 * g + 2) := by
    rw [hK]
    exact congrArg Block.mk (keyexp_256_1_ok key g ⟨roundKeyBytes (keyExpansion 8 key) (2 * g)⟩
      ⟨roundKeyBytes (keyExpansion 8 key) (2 * g + 1)⟩ b hb rfl rfl)
  have s2 (g : Nat) : keyexp_256_2 (K (2 * g + 1)) (K (2 * g + 2)) = K (2 * g + 3) := by
    rw [hK]
    exact congrArg Block.mk (keyexp_256_2_ok key g ⟨roundKeyBytes (keyExpansion 8 key) (2 * g + 1)⟩
      ⟨roundKeyBytes (keyExpansion 8 key) (2 * g + 2)⟩ rfl rfl)
  have a0 : keyexp_256_1 0x01 (K 0) (K 1) = K 2 := s1 0 _ r1
  have a1 : keyexp_256_1 0x02 (K 2) (K 3) = K 4 := s1 1 _ r2
  have a2 : keyexp_256_1 0x04 (K 4) (K 5) = K 6 := s1 2 _ r3
  have a3 : keyexp_256_1 0x08 (K 6) (K 7) = K 8 := s1 3 _ r4
  have a4 : keyexp_256_1 0x10 (K 8) (K 9) = K 10 := s1 4 _ r5
  have a5 : keyexp_256_1 0x20 (K 10) (K 11) = K 12 := s1 5 _ r6
  have a6 : keyexp_256_1 0x40 (K 12) (K 13) = K 14 := s1 6 _ r7
  have b0 : keyexp_256_2 (K 1) (K 2) = K 3 := s2 0
  have b1 : keyexp_256_2 (K 3) (K 4) = K 5 := s2 1
  have b2 : keyexp_256_2 (K 5) (K 6) = K 7 := s2 2
  have b3 : keyexp_256_2 (K 7) (K 8) = K 9 := s2 3
  have b4 : keyexp_256_2 (K 9) (K 10) = K 11 := s2 4
  have b5 : keyexp_256_2 (K 11) (K 12) = K 13 := s2 5
  have hR : (Vector.ofFn fun r : Fin 15 => (⟨roundKeyBytes (keyExpansion 8 key) r⟩ : Block)) = Vector.ofFn fun r => K r := by
    rw [hK]
  rw [hR]; clear hR hK s1 s2
  have t0 := try_from_lo from_bytes_ok key (by omega)
  have t1 := try_from_hi from_bytes_ok key
  unfold keygen_256
  rw [sliceTo_ok _ _ (by simp)] at t0 ⊢
  rw [sliceFrom_ok _ _ (by simp)] at t1 ⊢
  simp only [bind_ok] at t0 t1 ⊢
  rw [bind_of_bind_ok t0]
  rw [bind_of_bind_ok t1]
  simp only [e0, e1, a0, a1, a2, a3, a4, a5, a6, b0, b1, b2, b3, b4, b5, pure_ok]
  refine congrArg Except.ok ?_
  apply ext_ofFn; intro i
  match i with
  | 0 | 1 | 2 | 3 | 4 | 5 | 6 | 7 | 8 | 9 | 10 | 11 | 12 | 13 | 14 => rfl

/-- State of the 192-bit schedule: `s` holds words `6g .. 6g+5`. -/
def Good (key : Vector Byte 24) (g : Nat) (s : Block × Block) : Prop :=
  (∀ c : Fin 4, keyWords s.1.val c = keyExpansion 6 key (6 * g + c.val)) ∧
    keyWords s.2.val 0 = keyExpansion 6 key (6 * g + 4) ∧ keyWords s.2.val 1 = keyExpansion 6 key (6 * g + 5)

theorem fwd_ok (key : Vector Byte 24) (g : Nat) (s1 s2 : Block) (b : Byte) (hb : rcon (g + 1) = rconW b)
    (hs : Good key g (s1, s2)) : Good key (g + 1) (fwd b s1 s2) := by
  obtain ⟨hc, h4, h5⟩ := hs
  obtain ⟨w0, w1, w2, w3⟩ := kw_step s1.val (shuffle_epi32 0x55 (aeskeygenassist b s2.val)) _
    (fun c => by rw [kw_shuffle_55, (kw_keygenassist b s2.val).1])
  obtain ⟨b0, b1, _, _⟩ := kw_bslli4 s2.val
  have v0 : keyWords (fwd b s1 s2).2.val 0 = Word.add (keyWords s2.val 0) (keyWords (fwd b s1 s2).1.val 3) := by
    simp only [fwd, kw_xor, kw_shuffle_ff, b0, add_zeroW]
  have v1 : keyWords (fwd b s1 s2).2.val 1 = Word.add (keyWords s2.val 1) (keyWords (fwd b s1 s2).2.val 0) := by
    simp only [fwd, kw_xor, kw_shuffle_ff, b0, b1, add_zeroW, Word.add_assoc]
  let s : Fin 6 → Word := fun j => match j with
    | 0 => keyWords s1.val 0 | 1 => keyWords s1.val 1 | 2 => keyWords s1.val 2 | 3 => keyWords s1.val 3
    | 4 => keyWords s2.val 0 | 5 => keyWords s2.val 1
  let s' : Fin 6 → Word := fun j => match j with
    | 0 => keyWords (fwd b s1 s2).1.val 0 | 1 => keyWords (fwd b s1 s2).1.val 1
    | 2 => keyWords (fwd b s1 s2).1.val 2 | 3 => keyWords (fwd b s1 s2).1.val 3
    | 4 => keyWords (fwd b s1 s2).2.val 0 | 5 => keyWords (fwd b s1 s2).2.val 1
  have := ke192_step key g (s := s) (s' := s') hb
    (fun j => match j with
      | 0 => hc 0 | 1 => hc 1 | 2 => hc 2 | 3 => hc 3 | 4 => h4 | 5 => h5) w0 w1 w2 w3 v0 v1
  exact ⟨fun c => match c with
      | 0 => this 0 | 1 => this 1 | 2 => this 2 | 3 => this 3, this 4, this 5⟩

theorem kw_unpacklo (a b : M128i) :
    keyWords (unpacklo_epi64 a b) 0 = keyWords a 0 ∧ keyWords (unpacklo_epi64 a b) 1 = keyWords a 1 ∧
    keyWords (unpacklo_epi64 a b) 2 = keyWords b 0 ∧ keyWords (unpacklo_epi64 a b) 3 = keyWords b 1 := by
  refine ⟨?_, ?_, ?_, ?_⟩ <;> funext j <;> (match j with | 0 | 1 | 2 | 3 => simp [keyWords, unpacklo_epi64])
theorem kw_alignr8 (a b : M128i) :
    keyWords (alignr_epi8 8 a b) 0 = keyWords b 2 ∧ keyWords (alignr_epi8 8 a b) 1 = keyWords b 3 ∧
    keyWords (alignr_epi8 8 a b) 2 = keyWords a 0 ∧ keyWords (alignr_epi8 8 a b) 3 = keyWords a 1 := by
  refine ⟨?_, ?_, ?_, ?_⟩ <;> funext j <;>
    (match j with | 0 | 1 | 2 | 3 => simp [keyWords, alignr_epi8, List.getD])

theorem keyexp_192_ok (key : Vector Byte 24) (h : Nat) (s : Block × Block) (b1 b2 : Byte)
    (hb1 : rcon (2 * h + 1) = rconW b1) (hb2 : rcon (2 * h + 2) = rconW b2) (hs : Good key (2 * h) s) :
    Good key (2 * h + 2) (keyexp_192 b1 b2 s).1 ∧
    (keyexp_192 b1 b2 s).2 = (⟨roundKeyBytes (keyExpansion 6 key) (3 * h + 1)⟩,
      ⟨roundKeyBytes (keyExpansion 6 key) (3 * h + 2)⟩, ⟨roundKeyBytes (keyExpansion 6 key) (3 * h + 3)⟩) := by
  obtain ⟨s1, s2⟩ := s
  have g1 := fwd_ok key (2 * h) s1 s2 b1 hb1 hs
  have g2 := fwd_ok key (2 * h + 1) (fwd b1 s1 s2).1 (fwd b1 s1 s2).2 b2 hb2 g1
  refine ⟨g2, ?_⟩
  have e1 : unpacklo_epi64 s2.val (fwd b1 s1 s2).1.val = roundKeyBytes (keyExpansion 6 key) (3 * h + 1) := by
    obtain ⟨k0, k1, k2, k3⟩ := kw_unpacklo s2.val (fwd b1 s1 s2).1.val
    obtain ⟨_, p4, p5⟩ := hs
    obtain ⟨q, _, _⟩ := g1
    apply eq_roundKeyBytes
    · rw [k0, p4]; congr 1; omega
    · rw [k1, p5]; congr 1; omega
    · rw [k2, q 0]; congr 1; simp; omega
    · rw [k3, q 1]; congr 1; simp; omega
  have e2 : alignr_epi8 8 (fwd b1 s1 s2).2.val (fwd b1 s1 s2).1.val = roundKeyBytes (keyExpansion 6 key) (3 * h + 2) := by
    obtain ⟨k0, k1, k2, k3⟩ := kw_alignr8 (fwd b1 s1 s2).2.val (fwd b1 s1 s2).1.val
    obtain ⟨q, q4, q5⟩ := g1
    apply eq_roundKeyBytes
    · rw [k0, q 2]; congr 1; simp; omega
    · rw [k1, q 3]; congr 1; simp; omega
    · rw [k2, q4]; congr 1; omega
    · rw [k3, q5]; congr 1; omega
  have e3 : (fwd b2 (fwd b1 s1 s2).1 (fwd b1 s1 s2).2).1.val = roundKeyBytes (keyExpansion 6 key) (3 * h + 3) := by
    obtain ⟨q, _, _⟩ := g2
    apply eq_roundKeyBytes
    · rw [q 0]; congr 1; simp; omega
    · rw [q 1]; congr 1; simp; omega
    · rw [q 2]; congr 1; simp; omega
    · rw [q 3]; congr 1; simp; omega
  simp only [keyexp_192, e1, e2, ← e3]

theorem keygen_192_init (key : Vector Byte 24) : ∃ kb : Vector U8 16, (∀ i (_ : i < 8), kb[i] = key[16 + i]) ∧
      keygen_192 key = (do
        let state : Block × Block := (⟨slice key 0 16 (by omega)⟩, ⟨kb⟩)
        let (state, (key1, key2, key3)) := keyexp_192 0x01 0x02 state
        let (state, (key4, key5, key6)) := keyexp_192 0x04 0x08 state
        let (state, (key7, key8, key9)) := keyexp_192 0x10 0x20 state
        let (_, (key10, key11, key12)) := keyexp_192 0x40 0x80 state
        pure #v[⟨slice key 0 16 (by omega)⟩, key1, key2, key3, key4, key5, key6, key7, key8, key9, key10, key11, key12]) := by
    refine ⟨⟨((key.toList.drop 16) ++ List.replicate 8 0).toArray, by simp⟩, ?_, ?_⟩
    · intro i hi; simp [hi]
    · unfold keygen_192 onTo onFrom
      have t0 := try_from_lo from_bytes_ok key (by omega)
      rw [sliceTo_ok _ _ (by simp)] at t0 ⊢
      rw [sliceFrom_ok _ _ (by simp)]
      simp only [bind_ok] at t0 ⊢
      rw [bind_of_bind_ok t0]
      simp [sliceTo, sliceFrom, copyFromSlice, arrayTryFrom, from_bytes_ok, bind_ok, pure_ok]

theorem good_init (key : Vector Byte 24) (kb : Vector U8 16) (hkb : ∀ i (_ : i < 8), kb[i] = key[16 + i]) :
    Good key 0 (⟨slice key 0 16 (by omega)⟩, ⟨kb⟩) := by
  refine ⟨?_, ?_, ?_⟩
  · intro c; funext j
    rw [keyExpansion_init 6 key (by omega), wordAt_eq key _ (by omega)]
    simp only [keyWords, getElem_slice]; congr 1; omega
  all_goals
    funext j
    rw [keyExpansion_init 6 key (by omega), wordAt_eq key _ (by omega)]
    simp only [keyWords]
    rw [hkb _ (by have := j.isLt; simp; omega)]; congr 1; simp; try omega

theorem keyexp_192_ok' (key : Vector Byte 24) (h h1 h2 h3 : Nat) (s : Block × Block) (b1 b2 : Byte)
    (hb1 : rcon (2 * h + 1) = rconW b1) (hb2 : rcon (2 * h + 2) = rconW b2) (hs : Good key (2 * h) s)
    (e1 : h1 = 3 * h + 1) (e2 : h2 = 3 * h + 2) (e3 : h3 = 3 * h + 3) :
    ∃ s', keyexp_192 b1 b2 s = (s', ⟨roundKeyBytes (keyExpansion 6 key) h1⟩,
      ⟨roundKeyBytes (keyExpansion 6 key) h2⟩, ⟨roundKeyBytes (keyExpansion 6 key) h3⟩) ∧ Good key (2 * (h + 1)) s' := by
  subst e1 e2 e3
  obtain ⟨g, k⟩ := keyexp_192_ok key h s b1 b2 hb1 hb2 hs
  exact ⟨_, Prod.ext rfl k, g⟩

theorem keygen_192_ok (key : Vector Byte 24) :
    keygen_192 key = .ok (Vector.ofFn fun r => ⟨roundKeyBytes (keyExpansion 6 key) r⟩) := by
  obtain ⟨r1, r2, r3, r4, r5, r6, r7, r8, r9, r10⟩ := rcon_vals
  obtain ⟨kb, hkb, hk⟩ := keygen_192_init key
  have hinit := good_init key kb hkb
  have e0 : slice key 0 16 (by omega) = roundKeyBytes (keyExpansion 6 key) 0 :=
    eq_roundKeyBytes (hinit.1 0) (hinit.1 1) (hinit.1 2) (hinit.1 3)
  obtain ⟨s1, n1, g1⟩ := keyexp_192_ok' key 0 1 2 3 _ (0x01 : U8) (0x02 : U8) r1 r2 hinit rfl rfl rfl
  obtain ⟨s2, n2, g2⟩ := keyexp_192_ok' key 1 4 5 6 _ (0x04 : U8) (0x08 : U8) r3 r4 g1 rfl rfl rfl
  obtain ⟨s3, n3, g3⟩ := keyexp_192_ok' key 2 7 8 9 _ (0x10 : U8) (0x20 : U8) r5 r6 g2 rfl rfl rfl
  obtain ⟨s4, n4, g4⟩ := keyexp_192_ok' key 3 10 11 12 _ (0x40 : U8) (0x80 : U8) r7 r8 g3 rfl rfl rfl
  rw [hk]
  simp only []
  rw [n1]; simp only []; rw [n2]; simp only []; rw [n3]; simp only []; rw [n4]; simp only [pure_ok]
  rw [e0]
  refine congrArg Except.ok ?_
  exact lit13 fun r => (⟨roundKeyBytes (keyExpansion 6 key) r⟩ : Block)

instance : LawfulKeygen Block where
  keygen_128_eq := keygen_128_ok
  keygen_192_eq := keygen_192_ok
  keygen_256_eq := keygen_256_ok

end Aes.X86
