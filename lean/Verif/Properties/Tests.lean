import Verif.Model.Tests
import Verif.Properties.Wide
import Verif.Properties.Vectors
import Verif.Properties.Riscv32
import Verif.Properties.BigEndian
import Verif.Properties.NoFault
/-!
C51: the crate's own test suite (src/tests.rs), on every target. It passes on all targets for which C01-C17 hold, and it fails on
the two for which they do not.
-/
namespace Aes
open Rust AesSpec Fips197 AesVec AesBlock Target

set_option maxRecDepth 100000
namespace Tests

theorem from_u128_ofB (t : Target) (v : U128) : (from_u128 v : M t.Block) = .ok (ofB (toBe 16 v)) := LawfulVec.from_bytes_eq _
theorem vec_ofB (t : Target) (v : Vec) : vec t v = .ok (ofB (toBe 16 v.1), ofB (toBe 16 v.2)) := by
  unfold vec
  rw [from_u128_ofB, from_u128_ofB]; rfl
theorem assert_eq_self {T : Type} {n : Nat} [AesVec T n] [LawfulVec T] (x : T) : assert_eq x x = .ok () := by
  unfold assert_eq Rust.assert
  rw [LawfulVec.eq_eq, decide_eq_true rfl]; rfl
theorem assert_eq_ne {t : Target} {x : t.Block} {v : Bytes 16} (h : view x ≠ v) : assert_eq x (ofB v) = .error .panic := by
  unfold assert_eq Rust.assert
  rw [LawfulVec.eq_eq, LawfulVec.view_ofB, decide_eq_false h]; rfl

/-- Is this a list of plaintext/ciphertext pairs of `f`? -/
def Good (f : Bytes 16 → Bytes 16) (v : Vec) : Prop := f (toBe 16 v.1) = toBe 16 v.2

theorem enc_passes (t : Target) {nr : Nat} (e : AesEnc t.Block nr) (f : Bytes 16 → Bytes 16)
    (h : ∀ p, e.encrypt_block p = .ok (ofB (f (view p)))) (vs : Vector Vec 4)
    (h0 : Good f vs[0]) (h1 : Good f vs[1]) (h2 : Good f vs[2]) (h3 : Good f vs[3]) : aes_test_enc t e vs = .ok () := by
  have step (v : Vec) (hv : Good f v) : e.encrypt_block (ofB (toBe 16 v.1)) = .ok (ofB (toBe 16 v.2)) := by
    rw [h, LawfulVec.view_ofB, hv]
  unfold aes_test_enc
  simp only [vec_ofB, bind_ok, C07_encrypt_2_blocks, C07_encrypt_4_blocks, step _ h0, step _ h1, step _ h2, step _ h3, pure_ok,
    assert_eq_self]
theorem dec_passes (t : Target) {nr : Nat} (d : AesDec t.Block nr) (f g : Bytes 16 → Bytes 16) (hgf : ∀ x, g (f x) = x)
    (h : ∀ p, d.decrypt_block p = .ok (ofB (g (view p)))) (vs : Vector Vec 4)
    (h0 : Good f vs[0]) (h1 : Good f vs[1]) (h2 : Good f vs[2]) (h3 : Good f vs[3]) : aes_test_dec t d vs = .ok () := by
  have step (v : Vec) (hv : Good f v) : d.decrypt_block (ofB (toBe 16 v.2)) = .ok (ofB (toBe 16 v.1)) := by
    rw [h, LawfulVec.view_ofB, ← hv, hgf]
  unfold aes_test_dec
  simp only [vec_ofB, bind_ok, C08_decrypt_2_blocks, C08_decrypt_4_blocks, step _ h0, step _ h1, step _ h2, step _ h3, pure_ok,
    assert_eq_self]

/-- The published vectors hold of the specification: run on the table-based code in the kernel, carried over by C01-C03. -/
theorem good128 (v : Vec) (h : (do
    let e : AesEnc Target.table.Block 10 ← Aes128Enc.from AES_128_KEY
    let c ← e.encrypt_block (← AesVec.from_bytes (toBe 16 v.1))
    into_bytes c) = .ok (toBe 16 v.2)) : Good (aes128 AES_128_KEY) v :=
  Except.ok.inj ((C01_aes128_encrypt .table (by decide) (by decide) _ _).symm.trans h)
theorem good192 (v : Vec) (h : (do
    let e : AesEnc Target.table.Block 12 ← Aes192Enc.from AES_192_KEY
    let c ← e.encrypt_block (← AesVec.from_bytes (toBe 16 v.1))
    into_bytes c) = .ok (toBe 16 v.2)) : Good (aes192 AES_192_KEY) v :=
  Except.ok.inj ((C02_aes192_encrypt .table (by decide) (by decide) _ _).symm.trans h)
theorem good256 (v : Vec) (h : (do
    let e : AesEnc Target.table.Block 14 ← Aes256Enc.from AES_256_KEY
    let c ← e.encrypt_block (← AesVec.from_bytes (toBe 16 v.1))
    into_bytes c) = .ok (toBe 16 v.2)) : Good (aes256 AES_256_KEY) v :=
  Except.ok.inj ((C03_aes256_encrypt .table (by decide) (by decide) _ _).symm.trans h)

theorem aes_128_ok (t : Target) (hrv : t ≠ .riscv32) (hbe : t ≠ .bitslice .big) : aes_128_test t = .ok () := by
  have := t.lawfulPre hrv
  have := t.lawfulDec hrv
  have h0 := good128 AES_128_VECTORS[0] (by decide +kernel)
  have h1 := good128 AES_128_VECTORS[1] (by decide +kernel)
  have h2 := good128 AES_128_VECTORS[2] (by decide +kernel)
  have h3 := good128 AES_128_VECTORS[3] (by decide +kernel)
  have h4 := good128 AES_128_VECTORS_4 (by decide +kernel)
  have he := encrypt_rkVec (B := t.Block) (nr := 10) (by omega) (keyExpansion 4 AES_128_KEY)
  have hd := decrypt_rkVec (B := t.Block) (nr := 10) (by omega) (keyExpansion 4 AES_128_KEY)
  have hk : (Aes128Enc.from AES_128_KEY : M (AesEnc t.Block 10)) = .ok ⟨rkVec t.Block 10 (keyExpansion 4 AES_128_KEY)⟩ := by
    rw [t.enc128_from, temp_std t hrv hbe, keyExpansionWith_std']
  unfold aes_128_test
  rw [hk, bind_ok]
  rw [enc_passes t _ (aes128 AES_128_KEY) he _ h0 h1 h2 h3, bind_ok, vec_ofB, bind_ok]
  dsimp only
  rw [he, bind_ok, LawfulVec.view_ofB, show cipher 10 (keyExpansion 4 AES_128_KEY) _ = _ from h4, assert_eq_self, bind_ok,
    decrypter_ok (by omega), bind_ok]
  dsimp only
  rw [dec_passes t _ (aes128 AES_128_KEY) (invCipher 10 (keyExpansion 4 AES_128_KEY)) (fun x => invCipher_cipher ..) hd _ h0 h1 h2 h3,
    bind_ok, hd, bind_ok, LawfulVec.view_ofB, ← show aes128 AES_128_KEY _ = _ from h4,
    show invCipher 10 (keyExpansion 4 AES_128_KEY) (aes128 AES_128_KEY _) = _ from invCipher_cipher .., assert_eq_self]
theorem aes_192_ok (t : Target) (hrv : t ≠ .riscv32) (hbe : t ≠ .bitslice .big) : aes_192_test t = .ok () := by
  have := t.lawfulPre hrv
  have := t.lawfulDec hrv
  have h0 := good192 AES_192_VECTORS[0] (by decide +kernel)
  have h1 := good192 AES_192_VECTORS[1] (by decide +kernel)
  have h2 := good192 AES_192_VECTORS[2] (by decide +kernel)
  have h3 := good192 AES_192_VECTORS[3] (by decide +kernel)
  have he := encrypt_rkVec (B := t.Block) (nr := 12) (by omega) (keyExpansion 6 AES_192_KEY)
  have hd := decrypt_rkVec (B := t.Block) (nr := 12) (by omega) (keyExpansion 6 AES_192_KEY)
  have hk : (Aes192Enc.from AES_192_KEY : M (AesEnc t.Block 12)) = .ok ⟨rkVec t.Block 12 (keyExpansion 6 AES_192_KEY)⟩ := by
    rw [t.enc192_from, temp_std t hrv hbe, keyExpansionWith_std']
  unfold aes_192_test
  rw [hk, bind_ok, enc_passes t _ (aes192 AES_192_KEY) he _ h0 h1 h2 h3, bind_ok, decrypter_ok (by omega), bind_ok,
    dec_passes t _ (aes192 AES_192_KEY) (invCipher 12 (keyExpansion 6 AES_192_KEY)) (fun x => invCipher_cipher ..) hd _ h0 h1 h2 h3]
theorem aes_256_ok (t : Target) (hrv : t ≠ .riscv32) (hbe : t ≠ .bitslice .big) : aes_256_test t = .ok () := by
  have := t.lawfulPre hrv
  have := t.lawfulDec hrv
  have h0 := good256 AES_256_VECTORS[0] (by decide +kernel)
  have h1 := good256 AES_256_VECTORS[1] (by decide +kernel)
  have h2 := good256 AES_256_VECTORS[2] (by decide +kernel)
  have h3 := good256 AES_256_VECTORS[3] (by decide +kernel)
  have he := encrypt_rkVec (B := t.Block) (nr := 14) (by omega) (keyExpansion 8 AES_256_KEY)
  have hd := decrypt_rkVec (B := t.Block) (nr := 14) (by omega) (keyExpansion 8 AES_256_KEY)
  have hk : (Aes256Enc.from AES_256_KEY : M (AesEnc t.Block 14)) = .ok ⟨rkVec t.Block 14 (keyExpansion 8 AES_256_KEY)⟩ := by
    rw [t.enc256_from, temp_std t hrv hbe, keyExpansionWith_std']
  unfold aes_256_test
  rw [hk, bind_ok, enc_passes t _ (aes256 AES_256_KEY) he _ h0 h1 h2 h3, bind_ok, decrypter_ok (by omega), bind_ok,
    dec_passes t _ (aes256 AES_256_KEY) (invCipher 14 (keyExpansion 8 AES_256_KEY)) (fun x => invCipher_cipher ..) hd _ h0 h1 h2 h3]

theorem check_list (t : Target) {N : Nat} (rk : Fin N → Bytes 16) (words : Vector U128 N) (l : List (Fin N))
    (h : ∀ i ∈ l, rk i = toBe 16 words[i]) :
    (l.forM fun i => do
      assert_eq (← idx (Vector.ofFn fun i => (ofB (rk i) : t.Block)) i.val) (← from_u128 words[i])) = .ok () := by
  induction l with
  | nil => rfl
  | cons i l ih =>
    rw [List.forM_eq_forM, List.forM_cons]
    have hi : (idx (Vector.ofFn fun i => (ofB (rk i) : t.Block)) i.val : M t.Block) = .ok (ofB (rk i)) := by
      unfold idx
      rw [dif_pos i.isLt, Vector.getElem_ofFn]
    rw [hi, bind_ok, from_u128_ofB, bind_ok, h i (by simp), assert_eq_self, bind_ok]
    exact ih fun j hj => h j (by simp [hj])

theorem expansion_128_ok (t : Target) (hrv : t ≠ .riscv32) (hbe : t ≠ .bitslice .big) : expansion_of_128_bit_key t = .ok () := by
  unfold expansion_of_128_bit_key
  rw [keygen_128_all, temp_std t hrv hbe, bind_ok]
  refine check_list t (fun r : Fin 11 => roundKeyBytes (keyExpansionWith (stdTemp 4) 4 AES_128_KEY) r) words128 _ fun i _ => ?_
  rw [rkOf_ok _ _ (by omega) _ 44 _ (by omega), stdTemp_fast]
  revert i; decide +kernel
theorem expansion_192_ok (t : Target) (hrv : t ≠ .riscv32) (hbe : t ≠ .bitslice .big) : expansion_of_192_bit_key t = .ok () := by
  unfold expansion_of_192_bit_key
  rw [keygen_192_all, temp_std t hrv hbe, bind_ok]
  refine check_list t (fun r : Fin 13 => roundKeyBytes (keyExpansionWith (stdTemp 6) 6 AES_192_KEY) r) words192 _ fun i _ => ?_
  rw [rkOf_ok _ _ (by omega) _ 52 _ (by omega), stdTemp_fast]
  revert i; decide +kernel
theorem expansion_256_ok (t : Target) (hrv : t ≠ .riscv32) (hbe : t ≠ .bitslice .big) : expansion_of_256_bit_key t = .ok () := by
  unfold expansion_of_256_bit_key
  rw [keygen_256_all, temp_std t hrv hbe, bind_ok]
  refine check_list t (fun r : Fin 15 => roundKeyBytes (keyExpansionWith (stdTemp 8) 8 AES_256_KEY) r) words256 _ fun i _ => ?_
  rw [rkOf_ok _ _ (by omega) _ 60 _ (by omega), stdTemp_fast]
  revert i; decide +kernel

theorem assert_eq_view {t : Target} {x : t.Block} {v : Bytes 16} (h : view x = v) : assert_eq x (ofB v) = .ok () := by
  unfold assert_eq Rust.assert
  rw [LawfulVec.eq_eq, LawfulVec.view_ofB, decide_eq_true h]; rfl

theorem aesenc_ok (t : Target) (hrv : t ≠ .riscv32) : aesenc_test t = .ok () := by
  have := t.lawfulDec hrv
  unfold aesenc_test
  rw [from_u128_ofB, bind_ok, from_u128_ofB, bind_ok, from_u128_ofB, bind_ok, assert_eq_view, bind_ok, assert_eq_view]
  · rw [LawfulDec.view_dec_last, LawfulDec.view_imc, LawfulVec.view_xor, LawfulVec.view_zero, LawfulVec.view_ofB, LawfulVec.view_ofB]
    decide +kernel
  · rw [LawfulEnc.view_enc, LawfulVec.view_ofB, LawfulVec.view_ofB]
    decide +kernel

/-- The cipher tests fail at their first assertion if the first vector comes out wrong. -/
theorem enc_fails (t : Target) {nr : Nat} (e : AesEnc t.Block nr) (y : t.Block) (vs : Vector Vec 4)
    (h : e.encrypt_block (ofB (toBe 16 vs[0].1)) = .ok y) (hy : view y ≠ toBe 16 vs[0].2) :
    aes_test_enc t e vs = .error .panic := by
  unfold aes_test_enc
  rw [vec_ofB, bind_ok, vec_ofB, bind_ok, vec_ofB, bind_ok, vec_ofB, bind_ok]
  simp only [h, bind_ok, assert_eq_ne hy]
  rfl
/-- The first vector, from a theorem about bytes. -/
theorem first_wrong (t : Target) {nr : Nat} (e : AesEnc t.Block nr) (pt ct : Bytes 16) (y : t.Block)
    (hy : e.encrypt_block (ofB pt) = .ok y)
    (h : (do
      let c ← e.encrypt_block (← AesVec.from_bytes pt)
      into_bytes c) ≠ .ok ct) : view y ≠ ct := by
  rw [LawfulVec.from_bytes_eq, bind_ok, hy, bind_ok, into_bytes_eq] at h
  exact fun he => h (congrArg Except.ok he)

theorem aes_128_fails (t : Target) (h : (do
      let e : AesEnc t.Block 10 ← Aes128Enc.from exKey128
      let c ← e.encrypt_block (← AesVec.from_bytes exPt)
      into_bytes c) ≠ .ok (Fips197.aes128 exKey128 exPt)) : aes_128_test t = .error .panic := by
  rw [ex_spec_128] at h
  unfold aes_128_test
  rw [show AES_128_KEY = exKey128 by decide +kernel]
  obtain ⟨e, he⟩ : ∃ e : AesEnc t.Block 10, Aes128Enc.from exKey128 = .ok e := ⟨_, t.enc128_from _⟩
  obtain ⟨y, hy⟩ := (C32_one_block t (by omega) e ⟨e.round_keys⟩ (ofB exPt)).1
  rw [he, bind_ok] at h
  rw [he, bind_ok, enc_fails t e y AES_128_VECTORS]
  · rfl
  · rw [show toBe 16 AES_128_VECTORS[0].1 = exPt by decide +kernel]; exact hy
  · rw [show toBe 16 AES_128_VECTORS[0].2 = exCt128 by decide +kernel]; exact first_wrong t e _ _ y hy h
theorem aes_192_fails (t : Target) (h : (do
      let e : AesEnc t.Block 12 ← Aes192Enc.from exKey192
      let c ← e.encrypt_block (← AesVec.from_bytes exPt)
      into_bytes c) ≠ .ok (Fips197.aes192 exKey192 exPt)) : aes_192_test t = .error .panic := by
  rw [ex_spec_192] at h
  unfold aes_192_test
  rw [show AES_192_KEY = exKey192 by decide +kernel]
  obtain ⟨e, he⟩ : ∃ e : AesEnc t.Block 12, Aes192Enc.from exKey192 = .ok e := ⟨_, t.enc192_from _⟩
  obtain ⟨y, hy⟩ := (C32_one_block t (by omega) e ⟨e.round_keys⟩ (ofB exPt)).1
  rw [he, bind_ok] at h
  rw [he, bind_ok, enc_fails t e y AES_192_VECTORS]
  · rfl
  · rw [show toBe 16 AES_192_VECTORS[0].1 = exPt by decide +kernel]; exact hy
  · rw [show toBe 16 AES_192_VECTORS[0].2 = exCt192 by decide +kernel]; exact first_wrong t e _ _ y hy h
theorem aes_256_fails (t : Target) (h : (do
      let e : AesEnc t.Block 14 ← Aes256Enc.from exKey256
      let c ← e.encrypt_block (← AesVec.from_bytes exPt)
      into_bytes c) ≠ .ok (Fips197.aes256 exKey256 exPt)) : aes_256_test t = .error .panic := by
  rw [ex_spec_256] at h
  unfold aes_256_test
  rw [show AES_256_KEY = exKey256 by decide +kernel]
  obtain ⟨e, he⟩ : ∃ e : AesEnc t.Block 14, Aes256Enc.from exKey256 = .ok e := ⟨_, t.enc256_from _⟩
  obtain ⟨y, hy⟩ := (C32_one_block t (by omega) e ⟨e.round_keys⟩ (ofB exPt)).1
  rw [he, bind_ok] at h
  rw [he, bind_ok, enc_fails t e y AES_256_VECTORS]
  · rfl
  · rw [show toBe 16 AES_256_VECTORS[0].1 = exPt by decide +kernel]; exact hy
  · rw [show toBe 16 AES_256_VECTORS[0].2 = exCt256 by decide +kernel]; exact first_wrong t e _ _ y hy h
end Tests

/-! ### C51 -/

/-- C51: the unit tests of the constant-time code pass on both byte orders. -/
theorem C51_unit_tests (t : Target) : ∀ r ∈ Tests.unit_tests t, r = .ok () := by
  cases t with
  | bitslice e =>
    cases e with
    | little => decide +kernel
    | big => decide +kernel
  | _ => exact fun r hr => nomatch hr

/-- C51: on every target but two the crate's test suite passes. -/
theorem C51_suite_passes (t : Target) (hrv : t ≠ .riscv32) (hbe : t ≠ .bitslice .big) :
    ∀ r ∈ Tests.all t, r = .ok () := by
  intro r hr
  rcases List.mem_append.mp hr with h | h
  · clear hr
    revert r
    simp only [Tests.suite, List.mem_cons, List.not_mem_nil, or_false, forall_eq_or_imp, forall_eq]
    exact ⟨Tests.aesenc_ok t hrv, Tests.expansion_128_ok t hrv hbe, Tests.expansion_192_ok t hrv hbe,
      Tests.expansion_256_ok t hrv hbe, Tests.aes_128_ok t hrv hbe, Tests.aes_192_ok t hrv hbe, Tests.aes_256_ok t hrv hbe⟩
  · exact C51_unit_tests t r h

/-- C51: on RV32 with Zkne/Zknd every test fails. -/
theorem C51_suite_fails_riscv32 : ∀ r ∈ Tests.all .riscv32, r = .error .panic := by
  simp only [Tests.all, Tests.unit_tests, List.append_nil, Tests.suite, List.mem_cons, List.not_mem_nil, or_false,
    forall_eq_or_imp, forall_eq]
  exact ⟨by decide +kernel, by decide +kernel, by decide +kernel, by decide +kernel,
    Tests.aes_128_fails _ C41_not_aes128, Tests.aes_192_fails _ C41_not_aes192, Tests.aes_256_fails _ C41_not_aes256⟩

/-- C51: the constant-time code on a big-endian target passes the first test of src/tests.rs and its two unit tests, and fails the
others. -/
theorem C51_suite_fails_big_endian : Tests.all (.bitslice .big) =
    [.ok (), .error .panic, .error .panic, .error .panic, .error .panic, .error .panic, .error .panic, .ok (), .ok ()] := by
  unfold Tests.all Tests.suite
  rw [Tests.aesenc_ok _ (by decide), Tests.aes_128_fails _ C42_not_aes128, Tests.aes_192_fails _ C42_not_aes192,
    Tests.aes_256_fails _ C42_not_aes256,
    show Tests.expansion_of_128_bit_key (.bitslice .big) = .error .panic by decide +kernel,
    show Tests.expansion_of_192_bit_key (.bitslice .big) = .error .panic by decide +kernel,
    show Tests.expansion_of_256_bit_key (.bitslice .big) = .error .panic by decide +kernel,
    show Tests.unit_tests (.bitslice .big) = [.ok (), .ok ()] by decide +kernel]
  rfl

/-- C51: so running the suite tells the two broken targets from the others. -/
theorem C51_suite_decides (t : Target) : (∀ r ∈ Tests.all t, r = .ok ()) ↔ t ≠ .riscv32 ∧ t ≠ .bitslice .big := by
  constructor
  · intro h
    constructor
    · rintro rfl
      have h1 := C51_suite_fails_riscv32 _ (List.mem_cons_self ..)
      have h2 := h _ (List.mem_cons_self ..)
      rw [h1] at h2; exact absurd h2 (by simp)
    · rintro rfl
      rw [C51_suite_fails_big_endian] at h
      exact absurd (h (.error .panic) (by simp)) (by simp)
  · exact fun h => C51_suite_passes t h.1 h.2

/-- The hypotheses are met by eight targets, for instance these. -/
example : ∀ r ∈ Tests.all .x86, r = .ok () := C51_suite_passes .x86 (by decide) (by decide)
/-- The suite has seven tests (nine with the constant-time code), and the first one evaluated in full on the table-based target. -/
example : (Tests.all .table).length = 7 ∧ (Tests.all (.bitslice .little)).length = 9 ∧ Tests.aesenc_test .table = .ok () :=
  ⟨rfl, rfl, by decide +kernel⟩
end Aes
