import Verif.Proofs.Riscv32Cipher
import Verif.Properties.Rounds
import Verif.Properties.Chain
import Verif.Properties.Vectors
import Verif.Proofs.Fast
/-!
C41: on RISC-V-32 with `zkne` and `zknd` (under `nightly`) the crate does not compute AES. What it computes is
characterised for all inputs, and every claim that fails is refuted with a witness evaluated in the kernel.
`enc` and `enc_last` are right (C12); data handling is right (C18-C27); nothing panics (C32).
-/
namespace Aes
open Rust AesSpec Fips197 AesVec AesBlock

/-- `AesBlock` on RISC-V-32. -/
abbrev RvBlock : Type := Target.riscv32.Block

/-! ### What the code computes, for all inputs -/

/-- C41: `dec` applies SHIFTROWS where INVSHIFTROWS is due. -/
theorem C41_dec (s k : Bytes 16) :
    (do
      let x : RvBlock ← from_bytes s
      let rk : RvBlock ← from_bytes k
      into_bytes (dec x rk)) = .ok (rv32DecRound s k) :=
  bytes2 (B := Riscv32.Block) AesVec.dec rv32DecRound Riscv32.view_dec s k
/-- C41: `dec_last` applies SHIFTROWS where INVSHIFTROWS is due. -/
theorem C41_dec_last (s k : Bytes 16) :
    (do
      let x : RvBlock ← from_bytes s
      let rk : RvBlock ← from_bytes k
      into_bytes (dec_last x rk)) = .ok (rv32DecLastRound s k) :=
  bytes2 (B := Riscv32.Block) AesVec.dec_last rv32DecLastRound Riscv32.view_dec_last s k
/-- C41: `mc` applies SHIFTROWS twice before MIXCOLUMNS. -/
theorem C41_mc (s : Bytes 16) :
    (do
      let x : RvBlock ← from_bytes s
      into_bytes (mc x)) = .ok (rv32Mc s) :=
  bytes1 (B := Riscv32.Block) AesBlock.mc rv32Mc Riscv32.view_mc s
/-- C41: `imc` applies SHIFTROWS twice before INVMIXCOLUMNS. -/
theorem C41_imc (s : Bytes 16) :
    (do
      let x : RvBlock ← from_bytes s
      into_bytes (imc x)) = .ok (rv32Imc s) :=
  bytes1 (B := Riscv32.Block) AesBlock.imc rv32Imc Riscv32.view_imc s

/-- C41: `chain_enc` starts with a round under `keys[0]` and ends by adding the last key, for key slices of any positive
length: `self.enc(keys[0])...enc(keys[n - 2]) ^ keys[n - 1]`. -/
theorem C41_chain_enc (x k : RvBlock) (ks : List RvBlock) :
    chain_enc x (k :: ks) = .ok (bitxor ((k :: ks).dropLast.foldl enc x) ((k :: ks).getLast (by simp))) :=
  Riscv32.chain_enc_rv x k ks
/-- C41: `chain_dec` likewise. -/
theorem C41_chain_dec (x k : RvBlock) (ks : List RvBlock) :
    chain_dec x (k :: ks) = .ok (bitxor ((k :: ks).dropLast.foldl dec x) ((k :: ks).getLast (by simp))) :=
  Riscv32.chain_dec_rv x k ks

/-- C41: the 128-bit key schedule, without ROTWORD. -/
theorem C41_key_schedule_128 (key : Bytes 16) :
    ∃ e : AesEnc RvBlock 10, Aes128Enc.from key = .ok e ∧ ∀ (r : Nat) (h : r < 11),
      into_bytes e.round_keys[r] = .ok (roundKeyBytes (keyExpansionWith (norotTemp 4) 4 key) r) := by
  refine ⟨_, Target.riscv32.enc128_from key, fun r h => ?_⟩
  rw [into_bytes_eq]
  simp only [rkVec, Vector.getElem_ofFn, LawfulVec.view_ofB]
  rfl
/-- C41: the 192-bit key schedule, without ROTWORD. -/
theorem C41_key_schedule_192 (key : Bytes 24) :
    ∃ e : AesEnc RvBlock 12, Aes192Enc.from key = .ok e ∧ ∀ (r : Nat) (h : r < 13),
      into_bytes e.round_keys[r] = .ok (roundKeyBytes (keyExpansionWith (norotTemp 6) 6 key) r) := by
  refine ⟨_, Target.riscv32.enc192_from key, fun r h => ?_⟩
  rw [into_bytes_eq]
  simp only [rkVec, Vector.getElem_ofFn, LawfulVec.view_ofB]
  rfl
/-- C41: the 256-bit key schedule, without ROTWORD in its last step. -/
theorem C41_key_schedule_256 (key : Bytes 32) :
    ∃ e : AesEnc RvBlock 14, Aes256Enc.from key = .ok e ∧ ∀ (r : Nat) (h : r < 15),
      into_bytes e.round_keys[r] = .ok (roundKeyBytes (keyExpansionWith norotTemp256 8 key) r) := by
  refine ⟨_, Target.riscv32.enc256_from key, fun r h => ?_⟩
  rw [into_bytes_eq]
  simp only [rkVec, Vector.getElem_ofFn, LawfulVec.view_ofB]
  rfl

/-- C41: the 256-bit key schedule is nevertheless KEYEXPANSION in all but the last round key. -/
theorem C41_key_schedule_256_prefix (key : Bytes 32) (i : Nat) (hi : i < 56) :
    keyExpansionWith norotTemp256 8 key i = keyExpansion 8 key i := by
  rw [← keyExpansionWith_std]
  induction i using Nat.strongRecOn with
  | _ i ih =>
    rw [keyExpansionWith]
    conv => rhs; rw [keyExpansionWith]
    split
    · rfl
    · rw [ih (i - 8) (by omega) (by omega), ih (i - 1) (by omega) (by omega)]
      simp only [norotTemp256]
      rw [if_neg (by omega)]

/-- C41: `encrypt_block`, for any round keys. -/
theorem C41_encrypt_block {nr : Nat} (hnr : 0 < nr) (e : AesEnc RvBlock nr) (rk : Nat → Bytes 16)
    (hrk : ∀ (r : Nat) (h : r < nr + 1), into_bytes e.round_keys[r] = .ok (rk r)) (pt : Bytes 16) :
    (do
      let c ← e.encrypt_block (← from_bytes pt)
      into_bytes c) = .ok (rv32Cipher nr rk pt) := by
  rw [LawfulVec.from_bytes_eq, bind_ok]
  have h := Riscv32.encrypt_rv hnr e (LawfulVec.ofB pt : Riscv32.Block)
  rw [LawfulVec.view_ofB] at h
  refine (congrArg (· >>= fun c => into_bytes c) h).trans ?_
  rw [bind_ok, into_bytes_eq, LawfulVec.view_ofB]
  refine congrArg Except.ok (Riscv32.rv32Cipher_congr hnr (fun r hr => ?_) pt)
  rw [keysOf_lt _ _ (by omega)]
  have := hrk r (by omega)
  rw [into_bytes_eq] at this
  exact Except.ok.inj this

/-- C41: `decrypt_block`, for any round keys. -/
theorem C41_decrypt_block {nr : Nat} (hnr : 0 < nr) (d : AesDec RvBlock nr) (rk : Nat → Bytes 16)
    (hrk : ∀ (r : Nat) (h : r < nr + 1), into_bytes d.round_keys[r] = .ok (rk r)) (ct : Bytes 16) :
    (do
      let p ← d.decrypt_block (← from_bytes ct)
      into_bytes p) = .ok (rv32Decipher nr rk ct) := by
  rw [LawfulVec.from_bytes_eq, bind_ok]
  have h := Riscv32.decrypt_rv hnr d (LawfulVec.ofB ct : Riscv32.Block)
  rw [LawfulVec.view_ofB] at h
  refine (congrArg (· >>= fun c => into_bytes c) h).trans ?_
  rw [bind_ok, into_bytes_eq, LawfulVec.view_ofB]
  refine congrArg Except.ok (Riscv32.rv32Decipher_congr hnr (fun r hr => ?_) ct)
  rw [keysOf_lt _ _ (by omega)]
  have := hrk r (by omega)
  rw [into_bytes_eq] at this
  exact Except.ok.inj this

/-- What riscv32 computes for AES-128 encryption, end to end. -/
def rv32Aes128 (key pt : Bytes 16) : Bytes 16 :=
  rv32Cipher 10 (roundKeyBytes (keyExpansionWith (norotTemp 4) 4 key)) pt
/-- What riscv32 computes for AES-192 encryption. -/
def rv32Aes192 (key : Bytes 24) (pt : Bytes 16) : Bytes 16 :=
  rv32Cipher 12 (roundKeyBytes (keyExpansionWith (norotTemp 6) 6 key)) pt
/-- What riscv32 computes for AES-256 encryption. -/
def rv32Aes256 (key : Bytes 32) (pt : Bytes 16) : Bytes 16 :=
  rv32Cipher 14 (roundKeyBytes (keyExpansionWith norotTemp256 8 key)) pt

/-- C41: AES-128 encryption from a key, for every key and block. -/
theorem C41_aes128_encrypt (key pt : Bytes 16) :
    (do
      let e : AesEnc RvBlock 10 ← Aes128Enc.from key
      let c ← e.encrypt_block (← from_bytes pt)
      into_bytes c) = .ok (rv32Aes128 key pt) := by
  obtain ⟨e, he, hk⟩ := C41_key_schedule_128 key
  rw [he, bind_ok]
  exact C41_encrypt_block (by omega) e _ hk pt
/-- C41: AES-192 encryption from a key, for every key and block. -/
theorem C41_aes192_encrypt (key : Bytes 24) (pt : Bytes 16) :
    (do
      let e : AesEnc RvBlock 12 ← Aes192Enc.from key
      let c ← e.encrypt_block (← from_bytes pt)
      into_bytes c) = .ok (rv32Aes192 key pt) := by
  obtain ⟨e, he, hk⟩ := C41_key_schedule_192 key
  rw [he, bind_ok]
  exact C41_encrypt_block (by omega) e _ hk pt
/-- C41: AES-256 encryption from a key, for every key and block. -/
theorem C41_aes256_encrypt (key : Bytes 32) (pt : Bytes 16) :
    (do
      let e : AesEnc RvBlock 14 ← Aes256Enc.from key
      let c ← e.encrypt_block (← from_bytes pt)
      into_bytes c) = .ok (rv32Aes256 key pt) := by
  obtain ⟨e, he, hk⟩ := C41_key_schedule_256 key
  rw [he, bind_ok]
  exact C41_encrypt_block (by omega) e _ hk pt

/-- C41: AES-128 decryption from a key, for every key and block. -/
theorem C41_aes128_decrypt (key ct : Bytes 16) :
    (do
      let d : AesDec RvBlock 10 ← Aes128Dec.from key
      let p ← d.decrypt_block (← from_bytes ct)
      into_bytes p) =
      .ok (rv32Decipher 10 (rv32DecKeys 10 (roundKeyBytes (keyExpansionWith (norotTemp 4) 4 key))) ct) := by
  rw [Target.riscv32.dec128_from, bind_ok]
  refine C41_decrypt_block (by omega) _ _ (fun r hr => ?_) ct
  rw [into_bytes_eq]
  refine congrArg Except.ok ?_
  have h := Riscv32.keysOf_decKeys 10 (rkVec Riscv32.Block 10 (keyExpansionWith (norotTemp 4) 4 key)) r (by omega)
  rw [keysOf_lt _ _ (by omega)] at h
  refine Eq.trans h ?_
  simp only [rv32DecKeys]
  rw [Riscv32.keysOf_rkVec _ _ _ (by omega)]
/-- C41: AES-192 decryption from a key, for every key and block. -/
theorem C41_aes192_decrypt (key : Bytes 24) (ct : Bytes 16) :
    (do
      let d : AesDec RvBlock 12 ← Aes192Dec.from key
      let p ← d.decrypt_block (← from_bytes ct)
      into_bytes p) =
      .ok (rv32Decipher 12 (rv32DecKeys 12 (roundKeyBytes (keyExpansionWith (norotTemp 6) 6 key))) ct) := by
  rw [Target.riscv32.dec192_from, bind_ok]
  refine C41_decrypt_block (by omega) _ _ (fun r hr => ?_) ct
  rw [into_bytes_eq]
  refine congrArg Except.ok ?_
  have h := Riscv32.keysOf_decKeys 12 (rkVec Riscv32.Block 12 (keyExpansionWith (norotTemp 6) 6 key)) r (by omega)
  rw [keysOf_lt _ _ (by omega)] at h
  refine Eq.trans h ?_
  simp only [rv32DecKeys]
  rw [Riscv32.keysOf_rkVec _ _ _ (by omega)]
/-- C41: AES-256 decryption from a key, for every key and block. -/
theorem C41_aes256_decrypt (key : Bytes 32) (ct : Bytes 16) :
    (do
      let d : AesDec RvBlock 14 ← Aes256Dec.from key
      let p ← d.decrypt_block (← from_bytes ct)
      into_bytes p) =
      .ok (rv32Decipher 14 (rv32DecKeys 14 (roundKeyBytes (keyExpansionWith norotTemp256 8 key))) ct) := by
  rw [Target.riscv32.dec256_from, bind_ok]
  refine C41_decrypt_block (by omega) _ _ (fun r hr => ?_) ct
  rw [into_bytes_eq]
  refine congrArg Except.ok ?_
  have h := Riscv32.keysOf_decKeys 14 (rkVec Riscv32.Block 14 (keyExpansionWith norotTemp256 8 key)) r (by omega)
  rw [keysOf_lt _ _ (by omega)] at h
  refine Eq.trans h ?_
  simp only [rv32DecKeys]
  rw [Riscv32.keysOf_rkVec _ _ _ (by omega)]

/-! ### Refutations -/

set_option maxRecDepth 100000

/-- Bytes 0, 1, ..., 15. -/
def ramp : Bytes 16 := #v[0, 1, 2, 3, 4, 5, 6, 7, 8, 9, 10, 11, 12, 13, 14, 15]

/-- C41, refutation of C13: `dec` and `dec_last` are not the FIPS-197 rounds. -/
theorem C41_dec_refuted :
    (do
      let x : RvBlock ← from_bytes ramp
      into_bytes (dec x x)) ≠ .ok (decRound ramp ramp) ∧
    (do
      let x : RvBlock ← from_bytes ramp
      into_bytes (dec_last x x)) ≠ .ok (decLastRound ramp ramp) := by decide +kernel
/-- C41, refutation of C14: `mc` and `imc` are not (INV)MIXCOLUMNS, and do not even undo each other. -/
theorem C41_mc_refuted :
    (do
      let x : RvBlock ← from_bytes ramp
      into_bytes (mc x)) ≠ .ok (mixCols ramp) ∧
    (do
      let x : RvBlock ← from_bytes ramp
      into_bytes (imc x)) ≠ .ok (invMixCols ramp) ∧
    (do
      let x : RvBlock ← from_bytes ramp
      into_bytes (imc (mc x))) ≠ .ok ramp := by decide +kernel

/-- C41, refutation of C16 and C17: with two keys the documented value is not what comes out. -/
theorem C41_chain_refuted :
    (do
      let x : RvBlock ← from_bytes ramp
      let k : RvBlock ← from_bytes exPt
      into_bytes (← chain_enc x [k, x])) ≠
    (do
      let x : RvBlock ← from_bytes ramp
      let k : RvBlock ← from_bytes exPt
      into_bytes (← orPanic (chainDoc bitxor enc x [k, x]))) ∧
    (do
      let x : RvBlock ← from_bytes ramp
      let k : RvBlock ← from_bytes exPt
      into_bytes (← chain_dec x [k, x])) ≠
    (do
      let x : RvBlock ← from_bytes ramp
      let k : RvBlock ← from_bytes exPt
      into_bytes (← orPanic (chainDoc bitxor dec x [k, x]))) := by decide +kernel

/-- C41, refutation of C09: FIPS-197 Appendix A.1's key. -/
theorem C41_key_schedule_refuted :
    ∃ e : AesEnc RvBlock 10, Aes128Enc.from exKey128 = .ok e ∧
      into_bytes e.round_keys[1] ≠ .ok (roundKeyBytes (keyExpansion 4 exKey128) 1) := by
  obtain ⟨e, he, hk⟩ := C41_key_schedule_128 exKey128
  refine ⟨e, he, ?_⟩
  rw [hk 1 (by omega), ← Target.keyExpansionWith_std', rkOf_ok _ _ (by omega) _ 8 _ (by omega), rkOf_ok _ _ (by omega) _ 8 _ (by omega)]
  decide +kernel

/-- Leaving out ROTWORD makes no difference exactly to the words with four equal bytes. -/
theorem norot_iff (a w r : Word) : Word.add a (Word.add (subWord w) r) = Word.add a (Word.add (subWord (rotWord w)) r) ↔
    w 0 = w 1 ∧ w 1 = w 2 ∧ w 2 = w 3 := by
  constructor
  · intro h
    have inj : ∀ a b : Byte, sbox a = sbox b → a = b := fun a b h => by
      rw [← invSbox_sbox a, h, invSbox_sbox]
    have hh : ∀ i, sbox (w i) = sbox (rotWord w i) := fun i => by
      have := congrFun h i
      simp only [Word.add, subWord] at this
      simpa using this
    exact ⟨inj _ _ (hh 0), inj _ _ (hh 1), inj _ _ (hh 2)⟩
  · rintro ⟨h0, h1, h2⟩
    have : rotWord w = w := by
      funext i
      match i with
      | 0 => exact h0.symm
      | 1 => exact h1.symm
      | 2 => exact h2.symm
      | 3 => exact (h0.trans (h1.trans h2))
    rw [this]
/-- The first expanded word on RISC-V-32, for 128- and 192-bit keys. -/
theorem norot_word_iff (nk : Nat) (hnk : 0 < nk) {n : Nat} (key : Vector Byte n) :
    keyExpansionWith (norotTemp nk) nk key nk = keyExpansionWith (stdTemp nk) nk key nk ↔
      wordAt key (nk - 1) 0 = wordAt key (nk - 1) 1 ∧ wordAt key (nk - 1) 1 = wordAt key (nk - 1) 2 ∧
      wordAt key (nk - 1) 2 = wordAt key (nk - 1) 3 := by
  have step : ∀ t : Nat → Word → Word,
      keyExpansionWith t nk key nk = Word.add (wordAt key 0) (t nk (wordAt key (nk - 1))) := fun t => by
    rw [keyExpansionWith, dif_neg (by omega), Nat.sub_self, keyExpansionWith, dif_pos (by omega), keyExpansionWith, dif_pos (by omega)]
  rw [step, step]
  simp only [norotTemp, stdTemp, Nat.mod_self, if_true]
  exact norot_iff _ _ _

/-- C41, when exactly the first expanded round key is right: iff the last four bytes of the key are equal. So key setup is wrong for
all 128-bit keys but a fraction `2^-24` (at least). -/
theorem C41_key_schedule_right_iff_128 (key : Bytes 16) (e : AesEnc RvBlock 10) (he : Aes128Enc.from key = .ok e) :
    into_bytes e.round_keys[1] = .ok (roundKeyBytes (keyExpansion 4 key) 1) ↔
      (key[12] = key[13] ∧ key[13] = key[14] ∧ key[14] = key[15]) := by
  obtain ⟨e', he', hk⟩ := C41_key_schedule_128 key
  obtain rfl := Except.ok.inj (he.symm.trans he')
  have hw : wordAt key 3 0 = key[12] ∧ wordAt key 3 1 = key[13] ∧ wordAt key 3 2 = key[14] ∧ wordAt key 3 3 = key[15] := by
    simp [wordAt, List.getD]
  have hi := norot_word_iff 4 (by omega) key
  rw [show 4 - 1 = 3 from rfl, hw.1, hw.2.1, hw.2.2.1, hw.2.2.2] at hi
  rw [← hi, hk 1 (by omega), ← Target.keyExpansionWith_std']
  constructor
  · intro h
    apply Classical.byContradiction; intro hne
    exact roundKey_ne 4 hne (Except.ok.inj h)
  · intro h4
    have h5 := expansion_next (norotTemp 4) (stdTemp 4) 4 key 5 (by omega) (by omega) (fun x => by simp [norotTemp, stdTemp]) (expansion_base _ _ _ _ _ (by omega)) h4
    have h6 := expansion_next (norotTemp 4) (stdTemp 4) 4 key 6 (by omega) (by omega) (fun x => by simp [norotTemp, stdTemp]) (expansion_base _ _ _ _ _ (by omega)) h5
    have h7 := expansion_next (norotTemp 4) (stdTemp 4) 4 key 7 (by omega) (by omega) (fun x => by simp [norotTemp, stdTemp]) (expansion_base _ _ _ _ _ (by omega)) h6
    refine congrArg Except.ok (roundKey_congr' 1 fun j hj => ?_)
    match j with
    | 0 => exact h4
    | 1 => exact h5
    | 2 => exact h6
    | 3 => exact h7
/-- C41: the same for 192-bit keys. -/
theorem C41_key_schedule_right_iff_192 (key : Bytes 24) (e : AesEnc RvBlock 12) (he : Aes192Enc.from key = .ok e) :
    into_bytes e.round_keys[1] = .ok (roundKeyBytes (keyExpansion 6 key) 1) ↔
      (key[20] = key[21] ∧ key[21] = key[22] ∧ key[22] = key[23]) := by
  obtain ⟨e', he', hk⟩ := C41_key_schedule_192 key
  obtain rfl := Except.ok.inj (he.symm.trans he')
  have hw : wordAt key 5 0 = key[20] ∧ wordAt key 5 1 = key[21] ∧ wordAt key 5 2 = key[22] ∧ wordAt key 5 3 = key[23] := by
    simp [wordAt, List.getD]
  have hi := norot_word_iff 6 (by omega) key
  rw [show 6 - 1 = 5 from rfl, hw.1, hw.2.1, hw.2.2.1, hw.2.2.2] at hi
  rw [← hi, hk 1 (by omega), ← Target.keyExpansionWith_std']
  constructor
  · intro h
    apply Classical.byContradiction; intro hne
    exact roundKey_ne 6 hne (Except.ok.inj h)
  · intro h6
    have h7 := expansion_next (norotTemp 6) (stdTemp 6) 6 key 7 (by omega) (by omega) (fun x => by simp [norotTemp, stdTemp]) (expansion_base _ _ _ _ _ (by omega)) h6
    refine congrArg Except.ok (roundKey_congr' 1 fun j hj => ?_)
    match j with
    | 0 => exact expansion_base _ _ _ _ _ (by omega)
    | 1 => exact expansion_base _ _ _ _ _ (by omega)
    | 2 => exact h6
    | 3 => exact h7
/-- C41: with 256-bit keys the last round key is right exactly when the last word before it has four equal bytes. -/
theorem C41_key_schedule_right_iff_256 (key : Bytes 32) (e : AesEnc RvBlock 14) (he : Aes256Enc.from key = .ok e) :
    into_bytes e.round_keys[14] = .ok (roundKeyBytes (keyExpansion 8 key) 14) ↔
      (keyExpansion 8 key 55 0 = keyExpansion 8 key 55 1 ∧ keyExpansion 8 key 55 1 = keyExpansion 8 key 55 2 ∧
        keyExpansion 8 key 55 2 = keyExpansion 8 key 55 3) := by
  obtain ⟨e', he', hk⟩ := C41_key_schedule_256 key
  obtain rfl := Except.ok.inj (he.symm.trans he')
  have pre : ∀ i, i < 56 → keyExpansionWith norotTemp256 8 key i = keyExpansionWith (stdTemp 8) 8 key i := fun i hi => by
    rw [C41_key_schedule_256_prefix key i hi, keyExpansionWith_std]
  have hi : keyExpansionWith norotTemp256 8 key 56 = keyExpansionWith (stdTemp 8) 8 key 56 ↔
      (keyExpansion 8 key 55 0 = keyExpansion 8 key 55 1 ∧ keyExpansion 8 key 55 1 = keyExpansion 8 key 55 2 ∧
        keyExpansion 8 key 55 2 = keyExpansion 8 key 55 3) := by
    have step : ∀ t : Nat → Word → Word, keyExpansionWith t 8 key 56 =
        Word.add (keyExpansionWith t 8 key 48) (t 56 (keyExpansionWith t 8 key 55)) := fun t => by
      rw [keyExpansionWith, dif_neg (by omega)]
    rw [step, step, pre _ (by omega), pre _ (by omega), keyExpansionWith_std _ _ 55]
    rw [show norotTemp256 56 (keyExpansion 8 key 55) = Word.add (subWord (keyExpansion 8 key 55)) (rcon 7) from if_pos rfl,
      show stdTemp 8 56 (keyExpansion 8 key 55) = Word.add (subWord (rotWord (keyExpansion 8 key 55))) (rcon 7) from if_pos rfl]
    generalize keyExpansion 8 key 55 = w
    exact norot_iff _ w (rcon 7)
  rw [← hi, hk 14 (by omega), ← Target.keyExpansionWith_std']
  constructor
  · intro h
    apply Classical.byContradiction; intro hne
    exact roundKey_ne 56 hne (Except.ok.inj h)
  · intro h56
    have h57 := expansion_next norotTemp256 (stdTemp 8) 8 key 57 (by omega) (by omega) (fun x => by simp [norotTemp256, stdTemp]) (pre _ (by omega)) h56
    have h58 := expansion_next norotTemp256 (stdTemp 8) 8 key 58 (by omega) (by omega) (fun x => by simp [norotTemp256, stdTemp]) (pre _ (by omega)) h57
    have h59 := expansion_next norotTemp256 (stdTemp 8) 8 key 59 (by omega) (by omega) (fun x => by simp [norotTemp256, stdTemp]) (pre _ (by omega)) h58
    refine congrArg Except.ok (roundKey_congr' 14 fun j hj => ?_)
    match j with
    | 0 => exact h56
    | 1 => exact h57
    | 2 => exact h58
    | 3 => exact h59

/-- The hypotheses are met: key setup never fails. -/
example (key : Bytes 32) : ∃ e : AesEnc RvBlock 14, Aes256Enc.from key = .ok e := ⟨_, Target.riscv32.enc256_from key⟩

/-- C41, refutation of C01: the first vector of src/tests.rs fails on RISC-V-32. -/
theorem C41_not_aes128 :
    (do
      let e : AesEnc RvBlock 10 ← Aes128Enc.from exKey128
      let c ← e.encrypt_block (← from_bytes exPt)
      into_bytes c) ≠ .ok (Fips197.aes128 exKey128 exPt) := by
  rw [C41_aes128_encrypt, ex_spec_128, rv32Aes128,
    Riscv32.rv32Cipher_congr (by omega) (fun r hr => rkOf_ok _ _ (by omega) exKey128 44 r (by omega)),
    rv32Cipher, norotTemp_fast, encRound_fast, encLastRound_fast]
  decide +kernel
/-- C41, refutation of C02. -/
theorem C41_not_aes192 :
    (do
      let e : AesEnc RvBlock 12 ← Aes192Enc.from exKey192
      let c ← e.encrypt_block (← from_bytes exPt)
      into_bytes c) ≠ .ok (Fips197.aes192 exKey192 exPt) := by
  rw [C41_aes192_encrypt, ex_spec_192, rv32Aes192,
    Riscv32.rv32Cipher_congr (by omega) (fun r hr => rkOf_ok _ _ (by omega) exKey192 52 r (by omega)),
    rv32Cipher, norotTemp_fast, encRound_fast, encLastRound_fast]
  decide +kernel
/-- C41, refutation of C03. -/
theorem C41_not_aes256 :
    (do
      let e : AesEnc RvBlock 14 ← Aes256Enc.from exKey256
      let c ← e.encrypt_block (← from_bytes exPt)
      into_bytes c) ≠ .ok (Fips197.aes256 exKey256 exPt) := by
  rw [C41_aes256_encrypt, ex_spec_256, rv32Aes256,
    Riscv32.rv32Cipher_congr (by omega) (fun r hr => rkOf_ok _ _ (by omega) exKey256 60 r (by omega)),
    rv32Cipher, norotTemp256_fast, encRound_fast, encLastRound_fast]
  decide +kernel

/-- The wrong ciphertext. -/
def rvCt : Bytes 16 := #v[0x7f, 0x8f, 0x44, 0x8b, 0x1a, 0x55, 0xf8, 0xdc, 0xe3, 0x61, 0x8e, 0x7d, 0xe0, 0x10, 0x5f, 0x6f]

/-- C41, refutation of C05: decrypting an encryption does not give the plaintext back. -/
theorem C41_decrypt_does_not_invert :
    (do
      let e : AesEnc RvBlock 10 ← Aes128Enc.from exKey128
      let c ← e.encrypt_block (← from_bytes exPt)
      into_bytes c) = .ok rvCt ∧
    (do
      let d : AesDec RvBlock 10 ← Aes128Dec.from exKey128
      let p ← d.decrypt_block (← from_bytes rvCt)
      into_bytes p) ≠ .ok exPt := by
  rw [C41_aes128_encrypt, C41_aes128_decrypt, rv32Aes128,
    Riscv32.rv32Cipher_congr (by omega) (fun r hr => rkOf_ok _ _ (by omega) exKey128 44 r (by omega)),
    Riscv32.rv32Decipher_congr (g := rv32DecKeys 10 (rkOf (expandList (norotTemp 4) 4 exKey128 44))) (by omega)
      (fun r hr => by simp only [rv32DecKeys]; rw [rkOf_ok _ _ (by omega) exKey128 44 _ (by omega)])]
  rw [norotTemp_fast]
  constructor
  · rw [rv32Cipher, encRound_fast, encLastRound_fast]; decide +kernel
  · rw [rv32Decipher, rv32DecRound_fast, rv32DecLastRound_fast]; decide +kernel

/-- C41, refutation of C10: converting to a decrypter and back does not restore the encrypter. -/
theorem C41_conversion_refuted :
    ∃ e : AesEnc RvBlock 2, ∀ e', (do (← e.decrypter).encrypter) = .ok e' → e'.round_keys ≠ e.round_keys := by
  obtain ⟨x, hx⟩ : ∃ x : RvBlock, from_bytes ramp = .ok x := ⟨_, LawfulVec.from_bytes_eq _⟩
  refine ⟨⟨#v[x, x, x]⟩, fun e' he' h => ?_⟩
  rw [decrypter_ok (by omega), bind_ok, encrypter_ok (by omega)] at he'
  have h1 := congrArg (fun v : Vector RvBlock 3 => v[1]) ((congrArg AesEnc.round_keys (Except.ok.inj he')).trans h)
  simp only [encKeys, decKeys, Vector.getElem_ofFn] at h1
  have h2 : mc (imc x) = x := h1
  have h3 := congrArg (fun y : RvBlock => into_bytes y) h2
  have : (do
      let x : RvBlock ← from_bytes ramp
      into_bytes (mc (imc x))) ≠ (do
      let x : RvBlock ← from_bytes ramp
      into_bytes x) := by decide +kernel
  rw [hx, bind_ok, bind_ok] at this
  exact this h3
end Aes
