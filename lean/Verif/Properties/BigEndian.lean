import Verif.Properties.Vectors
import Verif.Proofs.Fast
/-!
C42: with the `constant-time` feature on a big-endian target, the key expansion of src/aes_bitslice.rs is not
KEYEXPANSION, and so encryption is not AES. The universal theorems say what is computed instead, for every key and
block; the `refuted` theorems give witnesses. (C05 and C06 hold on this target, and are proved with it included.)
-/
namespace Aes
open Rust AesSpec Fips197 AesVec

/-- Blocks of the constant-time backend on a big-endian machine. -/
abbrev BeBlock := (Target.bitslice .big).Block

/-! ### What is computed, for all keys and blocks -/

/-- C42: 128-bit key setup is KEYEXPANSION with the inverse of ROTWORD and the round constant in the last byte. -/
theorem C42_key_schedule_128 (key : Bytes 16) :
    ∃ e : AesEnc BeBlock 10, Aes128Enc.from key = .ok e ∧
      ∀ (r : Nat) (h : r < 11), into_bytes e.round_keys[r] = .ok (roundKeyBytes (keyExpansionWith (bigTemp 4) 4 key) r) := by
  refine ⟨_, Target.enc128_from _ key, fun r h => ?_⟩
  rw [into_bytes_eq]
  simp only [rkVec, Vector.getElem_ofFn, LawfulVec.view_ofB]
  rfl
/-- C42, 192-bit keys. -/
theorem C42_key_schedule_192 (key : Bytes 24) :
    ∃ e : AesEnc BeBlock 12, Aes192Enc.from key = .ok e ∧
      ∀ (r : Nat) (h : r < 13), into_bytes e.round_keys[r] = .ok (roundKeyBytes (keyExpansionWith (bigTemp 6) 6 key) r) := by
  refine ⟨_, Target.enc192_from _ key, fun r h => ?_⟩
  rw [into_bytes_eq]
  simp only [rkVec, Vector.getElem_ofFn, LawfulVec.view_ofB]
  rfl
/-- C42, 256-bit keys. -/
theorem C42_key_schedule_256 (key : Bytes 32) :
    ∃ e : AesEnc BeBlock 14, Aes256Enc.from key = .ok e ∧
      ∀ (r : Nat) (h : r < 15), into_bytes e.round_keys[r] = .ok (roundKeyBytes (keyExpansionWith (bigTemp 8) 8 key) r) := by
  refine ⟨_, Target.enc256_from _ key, fun r h => ?_⟩
  rw [into_bytes_eq]
  simp only [rkVec, Vector.getElem_ofFn, LawfulVec.view_ofB]
  rfl

/-- C42: AES-128 encryption on this target is CIPHER under that schedule. -/
theorem C42_aes128_encrypt (key pt : Bytes 16) :
    (do
      let e : AesEnc BeBlock 10 ← Aes128Enc.from key
      let c ← e.encrypt_block (← from_bytes pt)
      into_bytes c) = .ok (cipher 10 (keyExpansionWith (bigTemp 4) 4 key) pt) := by
  have := (Target.bitslice .big).lawfulPre (by decide)
  rw [Target.enc128_from, bind_ok, LawfulVec.from_bytes_eq, bind_ok, encrypt_rkVec (by omega), bind_ok, into_bytes_eq,
    LawfulVec.view_ofB, LawfulVec.view_ofB]
  rfl
/-- C42, 192-bit keys. -/
theorem C42_aes192_encrypt (key : Bytes 24) (pt : Bytes 16) :
    (do
      let e : AesEnc BeBlock 12 ← Aes192Enc.from key
      let c ← e.encrypt_block (← from_bytes pt)
      into_bytes c) = .ok (cipher 12 (keyExpansionWith (bigTemp 6) 6 key) pt) := by
  have := (Target.bitslice .big).lawfulPre (by decide)
  rw [Target.enc192_from, bind_ok, LawfulVec.from_bytes_eq, bind_ok, encrypt_rkVec (by omega), bind_ok, into_bytes_eq,
    LawfulVec.view_ofB, LawfulVec.view_ofB]
  rfl
/-- C42, 256-bit keys. -/
theorem C42_aes256_encrypt (key : Bytes 32) (pt : Bytes 16) :
    (do
      let e : AesEnc BeBlock 14 ← Aes256Enc.from key
      let c ← e.encrypt_block (← from_bytes pt)
      into_bytes c) = .ok (cipher 14 (keyExpansionWith (bigTemp 8) 8 key) pt) := by
  have := (Target.bitslice .big).lawfulPre (by decide)
  rw [Target.enc256_from, bind_ok, LawfulVec.from_bytes_eq, bind_ok, encrypt_rkVec (by omega), bind_ok, into_bytes_eq,
    LawfulVec.view_ofB, LawfulVec.view_ofB]
  rfl
/-- C42: decryption on this target is INVCIPHER under that schedule. -/
theorem C42_aes128_decrypt (key ct : Bytes 16) :
    (do
      let d : AesDec BeBlock 10 ← Aes128Dec.from key
      let p ← d.decrypt_block (← from_bytes ct)
      into_bytes p) = .ok (invCipher 10 (keyExpansionWith (bigTemp 4) 4 key) ct) := by
  have := (Target.bitslice .big).lawfulPre (by decide)
  have := (Target.bitslice .big).lawfulDec (by decide)
  rw [Target.dec128_from, bind_ok, LawfulVec.from_bytes_eq, bind_ok, decrypt_rkVec (by omega), bind_ok, into_bytes_eq,
    LawfulVec.view_ofB, LawfulVec.view_ofB]
  rfl
/-- C42, 192-bit keys. -/
theorem C42_aes192_decrypt (key : Bytes 24) (ct : Bytes 16) :
    (do
      let d : AesDec BeBlock 12 ← Aes192Dec.from key
      let p ← d.decrypt_block (← from_bytes ct)
      into_bytes p) = .ok (invCipher 12 (keyExpansionWith (bigTemp 6) 6 key) ct) := by
  have := (Target.bitslice .big).lawfulPre (by decide)
  have := (Target.bitslice .big).lawfulDec (by decide)
  rw [Target.dec192_from, bind_ok, LawfulVec.from_bytes_eq, bind_ok, decrypt_rkVec (by omega), bind_ok, into_bytes_eq,
    LawfulVec.view_ofB, LawfulVec.view_ofB]
  rfl
/-- C42, 256-bit keys. -/
theorem C42_aes256_decrypt (key : Bytes 32) (ct : Bytes 16) :
    (do
      let d : AesDec BeBlock 14 ← Aes256Dec.from key
      let p ← d.decrypt_block (← from_bytes ct)
      into_bytes p) = .ok (invCipher 14 (keyExpansionWith (bigTemp 8) 8 key) ct) := by
  have := (Target.bitslice .big).lawfulPre (by decide)
  have := (Target.bitslice .big).lawfulDec (by decide)
  rw [Target.dec256_from, bind_ok, LawfulVec.from_bytes_eq, bind_ok, decrypt_rkVec (by omega), bind_ok, into_bytes_eq,
    LawfulVec.view_ofB, LawfulVec.view_ofB]
  rfl

/-! ### Refutations -/

/-- CIPHER over round keys given as bytes. -/
def cipherBytes (nr : Nat) (rk : Nat → Bytes 16) (inp : Bytes 16) : Bytes 16 :=
  encLastRound (((List.range (nr - 1)).map fun i => rk (i + 1)).foldl encRound (xorB inp (rk 0))) (rk nr)
theorem cipher_bytes (nr : Nat) (w : Nat → Word) (rk : Nat → Bytes 16) (h : ∀ r, r ≤ nr → roundKeyBytes w r = rk r)
    (inp : Bytes 16) : cipher nr w inp = cipherBytes nr rk inp := by
  rw [cipher_eq_foldl, cipherBytes, h 0 (by omega), h nr (by omega)]
  rw [List.map_congr_left (f := fun i => roundKeyBytes w (i + 1)) (g := fun i => rk (i + 1)) (fun i hi => by
    by_cases h0 : nr = 0
    · subst h0; simp at hi
    · rw [List.mem_range] at hi; exact h _ (by omega))]

set_option maxRecDepth 100000

/-- The wrong rotation and the misplaced constant never cancel: with `a` the word that is rotated, bytes 0 and 2 of the
results agree only if `sbox a[3] = sbox a[1] ^ 1` and `sbox a[1] = sbox a[3]`. -/
theorem bigTemp_ne (nk : Nat) (hnk : 0 < nk) (w : Word) : bigTemp nk nk w ≠ stdTemp nk nk w := by
  simp only [bigTemp, stdTemp, Nat.mod_self, if_true]
  rw [Nat.div_self hnk]
  intro hh
  have h0 := congrFun hh 0
  have h2 := congrFun hh 2
  simp only [Word.add, subWord, rotWordInv, rotWord, rconBig, rcon] at h0 h2
  have h2' : sbox (w 1) ^^^ 0#8 = sbox (w 3) ^^^ 0#8 := h2
  have h0' : sbox (w 3) ^^^ 0#8 = sbox (w 1) ^^^ 1#8 := h0
  rw [← h2'] at h0'
  generalize sbox (w 1) = x at h0'
  rw [BitVec.xor_zero] at h0'
  exact absurd h0' (by revert x; decide)
/-- The first expanded word is wrong for every key. -/
theorem big_word_ne (nk : Nat) (hnk : 0 < nk) {n : Nat} (key : Vector Byte n) :
    keyExpansionWith (bigTemp nk) nk key nk ≠ keyExpansion nk key nk := by
  have base : ∀ (t : Nat → Word → Word) (i : Nat), i < nk → keyExpansionWith t nk key i = wordAt key i := fun t i hi => by
    rw [keyExpansionWith, dif_pos (Or.inl hi)]
  have step : ∀ t : Nat → Word → Word,
      keyExpansionWith t nk key nk = Word.add (wordAt key 0) (t nk (wordAt key (nk - 1))) := fun t => by
    rw [keyExpansionWith, dif_neg (by omega), base t _ (by omega), base t _ (by omega), Nat.sub_self]
  rw [← keyExpansionWith_std, step, step]
  intro h
  refine bigTemp_ne nk hnk (wordAt key (nk - 1)) (funext fun i => ?_)
  have := congrFun h i
  simpa [Word.add] using this
/-- C42: the key schedule is wrong for every 128-bit key, already in the first expanded round key. -/
theorem C42_key_schedule_wrong_128 (key : Bytes 16) (e : AesEnc BeBlock 10) (he : Aes128Enc.from key = .ok e) :
    into_bytes e.round_keys[1] ≠ .ok (roundKeyBytes (keyExpansion 4 key) 1) := by
  obtain ⟨e', he', hk⟩ := C42_key_schedule_128 key
  obtain rfl := Except.ok.inj (he.symm.trans he')
  rw [hk 1 (by omega)]
  exact fun h => roundKey_ne 4 (big_word_ne 4 (by omega) key) (Except.ok.inj h)
/-- C42: the key schedule is wrong for every 192-bit key. -/
theorem C42_key_schedule_wrong_192 (key : Bytes 24) (e : AesEnc BeBlock 12) (he : Aes192Enc.from key = .ok e) :
    into_bytes e.round_keys[1] ≠ .ok (roundKeyBytes (keyExpansion 6 key) 1) := by
  obtain ⟨e', he', hk⟩ := C42_key_schedule_192 key
  obtain rfl := Except.ok.inj (he.symm.trans he')
  rw [hk 1 (by omega)]
  exact fun h => roundKey_ne 6 (big_word_ne 6 (by omega) key) (Except.ok.inj h)
/-- C42: the key schedule is wrong for every 256-bit key. -/
theorem C42_key_schedule_wrong_256 (key : Bytes 32) (e : AesEnc BeBlock 14) (he : Aes256Enc.from key = .ok e) :
    into_bytes e.round_keys[2] ≠ .ok (roundKeyBytes (keyExpansion 8 key) 2) := by
  obtain ⟨e', he', hk⟩ := C42_key_schedule_256 key
  obtain rfl := Except.ok.inj (he.symm.trans he')
  rw [hk 2 (by omega)]
  exact fun h => roundKey_ne 8 (big_word_ne 8 (by omega) key) (Except.ok.inj h)

/-- C42, refutation of C09: FIPS-197 Appendix A.1's key. -/
theorem C42_key_schedule_refuted :
    ∃ e : AesEnc BeBlock 10, Aes128Enc.from exKey128 = .ok e ∧
      into_bytes e.round_keys[1] ≠ .ok (roundKeyBytes (keyExpansion 4 exKey128) 1) := by
  obtain ⟨e, he, hk⟩ := C42_key_schedule_128 exKey128
  refine ⟨e, he, ?_⟩
  rw [hk 1 (by omega), ← Target.keyExpansionWith_std', rkOf_ok _ _ (by omega) _ 8 _ (by omega), rkOf_ok _ _ (by omega) _ 8 _ (by omega)]
  decide +kernel

/-- C42, refutation of C01: the first vector of src/tests.rs fails. -/
theorem C42_not_aes128 :
    (do
      let e : AesEnc BeBlock 10 ← Aes128Enc.from exKey128
      let c ← e.encrypt_block (← from_bytes exPt)
      into_bytes c) ≠ .ok (Fips197.aes128 exKey128 exPt) := by
  rw [C42_aes128_encrypt, ex_spec_128,
    cipher_bytes _ _ _ (fun r hr => rkOf_ok _ _ (by omega) exKey128 44 r (by omega)),
    cipherBytes, bigTemp_fast, encRound_fast, encLastRound_fast]
  decide +kernel
/-- C42, refutation of C02. -/
theorem C42_not_aes192 :
    (do
      let e : AesEnc BeBlock 12 ← Aes192Enc.from exKey192
      let c ← e.encrypt_block (← from_bytes exPt)
      into_bytes c) ≠ .ok (Fips197.aes192 exKey192 exPt) := by
  rw [C42_aes192_encrypt, ex_spec_192,
    cipher_bytes _ _ _ (fun r hr => rkOf_ok _ _ (by omega) exKey192 52 r (by omega)),
    cipherBytes, bigTemp_fast, encRound_fast, encLastRound_fast]
  decide +kernel
/-- C42, refutation of C03. -/
theorem C42_not_aes256 :
    (do
      let e : AesEnc BeBlock 14 ← Aes256Enc.from exKey256
      let c ← e.encrypt_block (← from_bytes exPt)
      into_bytes c) ≠ .ok (Fips197.aes256 exKey256 exPt) := by
  rw [C42_aes256_encrypt, ex_spec_256,
    cipher_bytes _ _ _ (fun r hr => rkOf_ok _ _ (by omega) exKey256 60 r (by omega)),
    cipherBytes, bigTemp_fast, encRound_fast, encLastRound_fast]
  decide +kernel

/-- C42: the same bytes of source on a little-endian machine are right (C09), so the two builds of one program
encrypt differently: refutation of portability (C29) for the constant-time feature. -/
theorem C42_not_portable :
    (do
      let e : AesEnc BeBlock 10 ← Aes128Enc.from exKey128
      let c ← e.encrypt_block (← from_bytes exPt)
      into_bytes c) ≠
    (do
      let e : AesEnc (Target.bitslice .little).Block 10 ← Aes128Enc.from exKey128
      let c ← e.encrypt_block (← from_bytes exPt)
      into_bytes c) := by
  rw [C01_aes128_encrypt (.bitslice .little) (by decide) (by decide)]
  exact C42_not_aes128

/-- The hypotheses of the universal refutation are met: key setup never fails. -/
example (key : Bytes 16) : ∃ e : AesEnc BeBlock 10, Aes128Enc.from key = .ok e := ⟨_, Target.enc128_from _ key⟩

end Aes
