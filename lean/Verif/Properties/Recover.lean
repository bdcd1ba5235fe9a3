import Verif.Proofs.Recover
import Verif.Proofs.Fast
import Verif.Proofs.Decide
import Verif.Properties.Cipher
import Verif.Properties.KeySchedule
/-!
C52: what a leaked round key gives away. On every target one round key of an AES-128 encrypter, whichever it is,
is worth the key: exactly one key has it, and running the key expansion backwards computes that key. For AES-192
one round key and half of the next are needed, for AES-256 two consecutive ones, and less does not determine the
key.
-/
namespace Aes
open Rust AesSpec Fips197 AesVec AesBlock Target

variable (t : Target)

/-- Round key `r` of the encrypter made from a 128-bit key is `b`. -/
def HasRoundKey128 (key : Bytes 16) (r : Fin 11) (b : Bytes 16) : Prop :=
  ∃ e : AesEnc t.Block 10, Aes128Enc.from key = .ok e ∧ into_bytes e.round_keys[r] = .ok b
/-- Round key `r` of the encrypter made from a 192-bit key is `b`. -/
def HasRoundKey192 (key : Bytes 24) (r : Fin 13) (b : Bytes 16) : Prop :=
  ∃ e : AesEnc t.Block 12, Aes192Enc.from key = .ok e ∧ into_bytes e.round_keys[r] = .ok b
/-- Round key `r` of the encrypter made from a 256-bit key is `b`. -/
def HasRoundKey256 (key : Bytes 32) (r : Fin 15) (b : Bytes 16) : Prop :=
  ∃ e : AesEnc t.Block 14, Aes256Enc.from key = .ok e ∧ into_bytes e.round_keys[r] = .ok b

theorem has128_iff (key : Bytes 16) (r : Fin 11) (b : Bytes 16) :
    HasRoundKey128 t key r b ↔ roundKeyBytes (keyExpansionWith (t.temp 4) 4 key) r = b := by
  constructor
  · rintro ⟨e, he, hb⟩
    rw [t.enc128_from] at he
    cases he
    rw [into_bytes_eq] at hb
    have := Except.ok.inj hb
    simpa only [rkVec, Fin.getElem_fin, Vector.getElem_ofFn, LawfulVec.view_ofB] using this
  · intro h
    refine ⟨_, t.enc128_from key, ?_⟩
    rw [into_bytes_eq]
    simp only [rkVec, Fin.getElem_fin, Vector.getElem_ofFn, LawfulVec.view_ofB, h]
theorem has192_iff (key : Bytes 24) (r : Fin 13) (b : Bytes 16) :
    HasRoundKey192 t key r b ↔ roundKeyBytes (keyExpansionWith (t.temp 6) 6 key) r = b := by
  constructor
  · rintro ⟨e, he, hb⟩
    rw [t.enc192_from] at he
    cases he
    rw [into_bytes_eq] at hb
    have := Except.ok.inj hb
    simpa only [rkVec, Fin.getElem_fin, Vector.getElem_ofFn, LawfulVec.view_ofB] using this
  · intro h
    refine ⟨_, t.enc192_from key, ?_⟩
    rw [into_bytes_eq]
    simp only [rkVec, Fin.getElem_fin, Vector.getElem_ofFn, LawfulVec.view_ofB, h]
theorem has256_iff (key : Bytes 32) (r : Fin 15) (b : Bytes 16) :
    HasRoundKey256 t key r b ↔ roundKeyBytes (keyExpansionWith (t.temp 8) 8 key) r = b := by
  constructor
  · rintro ⟨e, he, hb⟩
    rw [t.enc256_from] at he
    cases he
    rw [into_bytes_eq] at hb
    have := Except.ok.inj hb
    simpa only [rkVec, Fin.getElem_fin, Vector.getElem_ofFn, LawfulVec.view_ofB] using this
  · intro h
    refine ⟨_, t.enc256_from key, ?_⟩
    rw [into_bytes_eq]
    simp only [rkVec, Fin.getElem_fin, Vector.getElem_ofFn, LawfulVec.view_ofB, h]

theorem has128_recover (key : Bytes 16) (r : Fin 11) (b : Bytes 16) :
    HasRoundKey128 t key r b ↔ key = recoverKey (t.temp 4) 4 (4 * r.val) b := by
  rw [has128_iff, roundKeyBytes_words]
  exact recover_iff (t.temp 4) 4 (4 * r.val) (by omega) b key

theorem has192_recover (key : Bytes 24) (r : Fin 12) (b : Bytes 16) (c : Bytes 8) :
    (HasRoundKey192 t key r.castSucc b ∧ ∃ b', HasRoundKey192 t key r.succ b' ∧ b'.toList.take 8 = c.toList) ↔
      key = recoverKey (t.temp 6) 6 (4 * r.val) (b ++ c) := by
  have hd : ∀ j, j < 6 → wordAt (n := 24) (b ++ c) j = if j < 4 then wordAt b j else wordAt c (j - 4) := by
    intro j hj
    split
    · exact wordAt_append_left (n := 4) b c j (by omega)
    · exact wordAt_append_right (n := 4) b c j (by omega)
  have h8 : ∀ b' : Bytes 16, b'.toList.take 8 = c.toList ↔ ∀ j, j < 2 → wordAt b' j = wordAt c j := by
    intro b'
    have e : b'.toList.take 8 = (Vector.ofFn fun i : Fin 8 => b'[i]).toList := by
      apply List.ext_getElem
      · simp
      · intro i h1 h2; simp
    rw [e, Vector.toList_inj]
    have e2 : ∀ j, j < 2 → wordAt (Vector.ofFn fun i : Fin 8 => b'[i]) j = wordAt b' j := by
      intro j hj; funext k
      simp only [wordAt]
      rw [List.getD_eq_getElem?_getD, List.getD_eq_getElem?_getD, List.getElem?_eq_getElem (by simp; omega),
        List.getElem?_eq_getElem (by simp; omega)]
      simp
    constructor
    · intro h j hj; rw [← e2 j hj, h]
    · intro h; exact wordAt_ext (n := 2) fun i hi => by rw [e2 i hi, h i hi]
  rw [← recover_iff (t.temp 6) 6 (4 * r.val) (by omega) (b ++ c) key]
  constructor
  · rintro ⟨h1, b', h2, h3⟩ j hj
    rw [has192_iff, roundKeyBytes_words] at h1 h2
    rw [h8] at h3
    rw [hd j hj]
    split
    · next h => exact h1 j h
    · next h =>
      rw [← h3 (j - 4) (by omega), ← h2 (j - 4) (by omega)]
      simp only [Fin.val_succ]
      rw [show 4 * (r.val + 1) + (j - 4) = 4 * r.val + j by omega]
  · intro h
    refine ⟨?_, _, (has192_iff t key r.succ _).mpr rfl, ?_⟩
    · rw [has192_iff, roundKeyBytes_words]
      intro j hj
      have := h j (by omega)
      rw [hd j (by omega), if_pos hj] at this
      exact this
    · rw [h8]
      intro j hj
      rw [← (roundKeyBytes_words _ _ _).mp rfl j (by omega)]
      have := h (j + 4) (by omega)
      rw [hd (j + 4) (by omega), if_neg (by omega), show j + 4 - 4 = j by omega] at this
      rw [← this]
      simp only [Fin.val_succ]
      rw [show 4 * (r.val + 1) + j = 4 * r.val + (j + 4) by omega]

theorem has256_recover (key : Bytes 32) (r : Fin 14) (b c : Bytes 16) :
    (HasRoundKey256 t key r.castSucc b ∧ HasRoundKey256 t key r.succ c) ↔
      key = recoverKey (t.temp 8) 8 (4 * r.val) (b ++ c) := by
  have hd : ∀ j, j < 8 → wordAt (n := 32) (b ++ c) j = if j < 4 then wordAt b j else wordAt c (j - 4) := by
    intro j hj
    split
    · exact wordAt_append_left (n := 4) b c j (by omega)
    · exact wordAt_append_right (n := 4) b c j (by omega)
  rw [← recover_iff (t.temp 8) 8 (4 * r.val) (by omega) (b ++ c) key, has256_iff, has256_iff, roundKeyBytes_words,
    roundKeyBytes_words]
  simp only [Fin.val_succ, Fin.val_castSucc]
  constructor
  · rintro ⟨h1, h2⟩ j hj
    rw [hd j hj]
    split
    · next h => exact h1 j h
    · next h => rw [← h2 (j - 4) (by omega), show 4 * (r.val + 1) + (j - 4) = 4 * r.val + j by omega]
  · intro h
    refine ⟨fun j hj => ?_, fun j hj => ?_⟩
    · have := h j (by omega)
      rwa [hd j (by omega), if_pos hj] at this
    · have := h (j + 4) (by omega)
      rw [hd (j + 4) (by omega), if_neg (by omega), show j + 4 - 4 = j by omega] at this
      rw [← this, show 4 * (r.val + 1) + j = 4 * r.val + (j + 4) by omega]

/-! ### C52 -/

/-- C52, AES-128, every target: whichever round key `r`, and whatever its value `b`, exactly one key has it. -/
theorem C52_aes128_unique (r : Fin 11) (b : Bytes 16) :
    ∃ key : Bytes 16, HasRoundKey128 t key r b ∧ ∀ key', HasRoundKey128 t key' r b → key' = key :=
  ⟨_, (has128_recover t _ r b).mpr rfl, fun _ h => (has128_recover t _ r b).mp h⟩

/-- C52, AES-192, every target: exactly one key has a given round key `r` and given first eight bytes of the next. -/
theorem C52_aes192_unique (r : Fin 12) (b : Bytes 16) (c : Bytes 8) :
    ∃ key : Bytes 24,
      (HasRoundKey192 t key r.castSucc b ∧ ∃ b', HasRoundKey192 t key r.succ b' ∧ b'.toList.take 8 = c.toList) ∧
      ∀ key', (HasRoundKey192 t key' r.castSucc b ∧ ∃ b', HasRoundKey192 t key' r.succ b' ∧ b'.toList.take 8 = c.toList) →
        key' = key :=
  ⟨_, (has192_recover t _ r b c).mpr rfl, fun _ h => (has192_recover t _ r b c).mp h⟩

/-- C52, AES-256, every target: exactly one key has given round keys `r` and `r + 1`. -/
theorem C52_aes256_unique (r : Fin 14) (b c : Bytes 16) :
    ∃ key : Bytes 32, (HasRoundKey256 t key r.castSucc b ∧ HasRoundKey256 t key r.succ c) ∧
      ∀ key', (HasRoundKey256 t key' r.castSucc b ∧ HasRoundKey256 t key' r.succ c) → key' = key :=
  ⟨_, (has256_recover t _ r b c).mpr rfl, fun _ h => (has256_recover t _ r b c).mp h⟩

/-- C52: where the key schedule is the standard's (C09), running Algorithm 2 of FIPS-197 backwards finds the key. -/
theorem C52_recover (hrv : t ≠ .riscv32) (hbe : t ≠ .bitslice .big) (k16 : Bytes 16) (k24 : Bytes 24) (k32 : Bytes 32)
    (r : Fin 11) (s : Fin 12) (u : Fin 14) (b b1 b2 b3 b4 : Bytes 16) (c : Bytes 8) :
    (HasRoundKey128 t k16 r b → recoverKey (stdTemp 4) 4 (4 * r.val) b = k16) ∧
    (HasRoundKey192 t k24 s.castSucc b1 → HasRoundKey192 t k24 s.succ b2 → b2.toList.take 8 = c.toList →
      recoverKey (stdTemp 6) 6 (4 * s.val) (b1 ++ c) = k24) ∧
    (HasRoundKey256 t k32 u.castSucc b3 → HasRoundKey256 t k32 u.succ b4 →
      recoverKey (stdTemp 8) 8 (4 * u.val) (b3 ++ b4) = k32) := by
  refine ⟨fun h => ?_, fun h h' hc => ?_, fun h h' => ?_⟩
  · rw [(has128_recover t k16 r b).mp h, temp_std t hrv hbe]
  · rw [(has192_recover t k24 s b1 c).mp ⟨h, b2, h', hc⟩, temp_std t hrv hbe]
  · rw [(has256_recover t k32 u b3 b4).mp ⟨h, h'⟩, temp_std t hrv hbe]

/-- C52: a single round key of AES-192 or AES-256 does not determine the key: two keys have it, whichever it is
(the last one excepted here). -/
theorem C52_not_less (r : Fin 12) (s : Fin 14) (b : Bytes 16) :
    (∃ k k' : Bytes 24, k ≠ k' ∧ HasRoundKey192 t k r.castSucc b ∧ HasRoundKey192 t k' r.castSucc b) ∧
    (∃ k k' : Bytes 32, k ≠ k' ∧ HasRoundKey256 t k s.castSucc b ∧ HasRoundKey256 t k' s.castSucc b) := by
  constructor
  · obtain ⟨k, ⟨h1, b1, h2, h3⟩, -⟩ := C52_aes192_unique t r b (Vector.replicate 8 0#8)
    obtain ⟨k', ⟨h1', b1', h2', h3'⟩, -⟩ := C52_aes192_unique t r b (Vector.replicate 8 1#8)
    refine ⟨k, k', fun e => ?_, h1, h1'⟩
    subst e
    have := ((has192_iff t k r.succ b1).mp h2).symm.trans ((has192_iff t k r.succ b1').mp h2')
    subst this
    exact absurd (h3.symm.trans h3') (by decide)
  · obtain ⟨k, ⟨h1, h2⟩, -⟩ := C52_aes256_unique t s b (Vector.replicate 16 0#8)
    obtain ⟨k', ⟨h1', h2'⟩, -⟩ := C52_aes256_unique t s b (Vector.replicate 16 1#8)
    refine ⟨k, k', fun e => ?_, h1, h1'⟩
    subst e
    have := ((has256_iff t k s.succ _).mp h2).symm.trans ((has256_iff t k s.succ _).mp h2')
    exact absurd this (by decide)

/-- C52, decrypters, every target: two 128-bit keys whose decrypters share a round key at some place are equal; so are
two 256-bit keys whose decrypters share two neighbouring ones. -/
theorem C52_dec_unique (k k' : Bytes 16) (l l' : Bytes 32) (d d' : AesDec t.Block 10) (f f' : AesDec t.Block 14)
    (hd : Aes128Dec.from k = .ok d) (hd' : Aes128Dec.from k' = .ok d')
    (hf : Aes256Dec.from l = .ok f) (hf' : Aes256Dec.from l' = .ok f') (r : Fin 11) (s : Fin 14) :
    (d.round_keys[r] = d'.round_keys[r] → k = k') ∧
    (f.round_keys[s.castSucc] = f'.round_keys[s.castSucc] → f.round_keys[s.succ] = f'.round_keys[s.succ] → l = l') := by
  have key : ∀ {nr : Nat} (w w' : Nat → Word) (i : Nat) (hi : i < nr + 1),
      (decKeys (rkVec t.Block nr w))[i] = (decKeys (rkVec t.Block nr w'))[i] → roundKeyBytes w (nr - i) = roundKeyBytes w' (nr - i) := by
    intro nr w w' i hi h
    simp only [decKeys, rkVec, Vector.getElem_ofFn] at h
    have h2 : (ofB (roundKeyBytes w (nr - i)) : t.Block) = ofB (roundKeyBytes w' (nr - i)) := by
      split at h
      · exact h
      · exact imc_injective t h
    have h3 := congrArg view h2
    rwa [LawfulVec.view_ofB, LawfulVec.view_ofB] at h3
  rw [t.dec128_from] at hd hd'
  rw [t.dec256_from] at hf hf'
  cases hd; cases hd'; cases hf; cases hf'
  constructor
  · intro h
    have h2 := key _ _ r.val r.isLt h
    have ha := (has128_recover t k ⟨10 - r.val, by omega⟩ _).mp ((has128_iff t k _ _).mpr rfl)
    have hb := (has128_recover t k' ⟨10 - r.val, by omega⟩ _).mp ((has128_iff t k' _ _).mpr rfl)
    rw [ha, hb]
    exact congrArg _ h2
  · intro h h'
    have h2 := key _ _ s.val (by omega) h
    have h3 := key _ _ (s.val + 1) (by omega) h'
    have e : 14 - s.val = 14 - (s.val + 1) + 1 := by omega
    have ha := (has256_recover t l ⟨14 - (s.val + 1), by omega⟩ _ _).mp
      ⟨(has256_iff t l _ _).mpr rfl, (has256_iff t l _ _).mpr rfl⟩
    have hb := (has256_recover t l' ⟨14 - (s.val + 1), by omega⟩ _ _).mp
      ⟨(has256_iff t l' _ _).mpr rfl, (has256_iff t l' _ _).mpr rfl⟩
    rw [ha, hb]
    simp only [Fin.val_castSucc, Fin.val_succ]
    rw [h3, ← e, h2]

/-! ### Concrete instances -/

/-- The last round key of the example of FIPS-197 appendix A.1, on an AES-NI machine ... -/
theorem ex_last_round_key : HasRoundKey128 .x86 exKey128 10
    #v[0xd0, 0x14, 0xf9, 0xa8, 0xc9, 0xee, 0x25, 0x89, 0xe1, 0x3f, 0x0c, 0xc8, 0xb6, 0x63, 0x0c, 0xa6] := by
  rw [has128_iff, temp_std _ (by decide) (by decide), rkOf_ok _ _ (by omega) _ 44 _ (by decide), stdTemp_fast]
  decide +kernel
/-- ... gives the key away. -/
example : recoverKey (stdTemp 4) 4 40
    #v[0xd0, 0x14, 0xf9, 0xa8, 0xc9, 0xee, 0x25, 0x89, 0xe1, 0x3f, 0x0c, 0xc8, 0xb6, 0x63, 0x0c, 0xa6] = exKey128 :=
  (C52_recover .x86 (by decide) (by decide) exKey128 (Vector.replicate 24 0#8) (Vector.replicate 32 0#8) 10 0 0 _ exPt exPt exPt exPt (Vector.replicate 8 0#8)).1
    ex_last_round_key
/-- Decrypters exist for the keys `C52_dec_unique` speaks of. -/
example (k : Bytes 16) (l : Bytes 32) : (∃ d : AesDec t.Block 10, Aes128Dec.from k = .ok d) ∧
    ∃ f : AesDec t.Block 14, Aes256Dec.from l = .ok f := ⟨⟨_, t.dec128_from k⟩, ⟨_, t.dec256_from l⟩⟩

end Aes
