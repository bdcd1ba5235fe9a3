import Verif.Proofs.EndToEnd
import Verif.Proofs.Decide
/-!
C09-C11, C38: key schedules and the conversions between encrypters and decrypters.
-/
namespace Aes
open Rust AesSpec Fips197 AesVec AesBlock Target

variable (t : Target)

/-! ### C09 -/
/-- C09, 128-bit keys: round key `r` of the encrypter is words `4r .. 4r+3` of KEYEXPANSION(key). -/
theorem C09_aes128 (hrv : t ≠ .riscv32) (hbe : t ≠ .bitslice .big) (key : Bytes 16) :
    ∃ e : AesEnc t.Block 10, Aes128Enc.from key = .ok e ∧
      ∀ (r : Nat) (h : r < 11), into_bytes e.round_keys[r] = .ok (roundKeyBytes (keyExpansion 4 key) r) := by
  refine ⟨_, t.enc128_from key, fun r h => ?_⟩
  rw [into_bytes_eq, temp_std t hrv hbe, keyExpansionWith_std']
  simp only [rkVec, Vector.getElem_ofFn, LawfulVec.view_ofB]
/-- C09, 192-bit keys. -/
theorem C09_aes192 (hrv : t ≠ .riscv32) (hbe : t ≠ .bitslice .big) (key : Bytes 24) :
    ∃ e : AesEnc t.Block 12, Aes192Enc.from key = .ok e ∧
      ∀ (r : Nat) (h : r < 13), into_bytes e.round_keys[r] = .ok (roundKeyBytes (keyExpansion 6 key) r) := by
  refine ⟨_, t.enc192_from key, fun r h => ?_⟩
  rw [into_bytes_eq, temp_std t hrv hbe, keyExpansionWith_std']
  simp only [rkVec, Vector.getElem_ofFn, LawfulVec.view_ofB]
/-- C09, 256-bit keys. -/
theorem C09_aes256 (hrv : t ≠ .riscv32) (hbe : t ≠ .bitslice .big) (key : Bytes 32) :
    ∃ e : AesEnc t.Block 14, Aes256Enc.from key = .ok e ∧
      ∀ (r : Nat) (h : r < 15), into_bytes e.round_keys[r] = .ok (roundKeyBytes (keyExpansion 8 key) r) := by
  refine ⟨_, t.enc256_from key, fun r h => ?_⟩
  rw [into_bytes_eq, temp_std t hrv hbe, keyExpansionWith_std']
  simp only [rkVec, Vector.getElem_ofFn, LawfulVec.view_ofB]

/-! ### C10: histories of conversions -/

/-- A cipher object of either kind. -/
inductive CipherObj (B : Type) (nr : Nat) where
  | enc (e : AesEnc B nr)
  | dec (d : AesDec B nr)

/-- The conversion available on it: `decrypter()` or `encrypter()`. -/
def CipherObj.convert {B : Type} [AesBlock B] {nr : Nat} : CipherObj B nr → M (CipherObj B nr)
  | .enc e => do pure (.dec (← e.decrypter))
  | .dec d => do pure (.enc (← d.encrypter))

/-- `k` conversions in a row. -/
def CipherObj.convertN {B : Type} [AesBlock B] {nr : Nat} (x : CipherObj B nr) : Nat → M (CipherObj B nr)
  | 0 => pure x
  | k + 1 => do (← x.convertN k).convert

/-- C10: two conversions lead back to the object itself (any round keys). -/
theorem C10_convert_twice (hrv : t ≠ .riscv32) {nr : Nat} (hnr : 0 < nr) (x : CipherObj t.Block nr) :
    (do
      let y ← x.convert
      y.convert) = .ok x := by
  have := t.lawfulDec hrv
  cases x with
  | enc e => simp only [CipherObj.convert, decrypter_ok hnr, encrypter_ok hnr, bind_ok, pure_bind, encKeys_decKeys]; rfl
  | dec d => simp only [CipherObj.convert, decrypter_ok hnr, encrypter_ok hnr, bind_ok, pure_bind, decKeys_encKeys]; rfl

/-- C10: a history of `k` conversions, of any length, amounts to none if `k` is even and to one if `k` is odd. -/
theorem C10_history (hrv : t ≠ .riscv32) {nr : Nat} (hnr : 0 < nr) (x : CipherObj t.Block nr) (k : Nat) :
    x.convertN k = if k % 2 = 0 then .ok x else x.convert := by
  induction k with
  | zero => rfl
  | succ k ih =>
    rw [CipherObj.convertN, ih]
    by_cases h : k % 2 = 0
    · rw [if_pos h, if_neg (by omega), bind_ok]
    · rw [if_neg h, if_pos (by omega)]; exact C10_convert_twice t hrv hnr x

/-- C10: no conversion ever fails, on any target. -/
theorem C10_convert_ok {nr : Nat} (hnr : 0 < nr) (x : CipherObj t.Block nr) : ∃ y, x.convert = .ok y := by
  cases x with
  | enc e => exact ⟨_, by simp only [CipherObj.convert, decrypter_ok hnr, bind_ok]; rfl⟩
  | dec d => exact ⟨_, by simp only [CipherObj.convert, encrypter_ok hnr, bind_ok]; rfl⟩

/-! ### C11 -/

/-- C11: a decrypter made from a key is the encrypter's decrypter. -/
theorem C11_dec_from (k16 : Bytes 16) (k24 : Bytes 24) (k32 : Bytes 32) :
    (Aes128Dec.from k16 : M (AesDec t.Block 10)) = (do (← Aes128Enc.from k16).decrypter) ∧
    (Aes192Dec.from k24 : M (AesDec t.Block 12)) = (do (← Aes192Enc.from k24).decrypter) ∧
    (Aes256Dec.from k32 : M (AesDec t.Block 14)) = (do (← Aes256Enc.from k32).decrypter) := ⟨rfl, rfl, rfl⟩

/-- C11: the encrypter recovered from a decrypter made from a key is the encrypter made from that key. -/
theorem C11_back (hrv : t ≠ .riscv32) (k16 : Bytes 16) (k24 : Bytes 24) (k32 : Bytes 32) :
    (do (← (Aes128Dec.from k16 : M (AesDec t.Block 10))).encrypter) = Aes128Enc.from k16 ∧
    (do (← (Aes192Dec.from k24 : M (AesDec t.Block 12))).encrypter) = Aes192Enc.from k24 ∧
    (do (← (Aes256Dec.from k32 : M (AesDec t.Block 14))).encrypter) = Aes256Enc.from k32 := by
  have := t.lawfulDec hrv
  rw [t.dec128_from, t.enc128_from, t.dec192_from, t.enc192_from, t.dec256_from, t.enc256_from]
  simp only [bind_ok, encrypter_ok (show 0 < 10 by omega), encrypter_ok (show 0 < 12 by omega),
    encrypter_ok (show 0 < 14 by omega), encKeys_decKeys, and_self]

/-- The round keys of a decrypter derived from a schedule. -/
theorem decKeys_EIC {B : Type} [AesBlock B] [LawfulVec B] [LawfulDec B] (nr : Nat) (w : Nat → Word) (r : Nat)
    (h : r < nr + 1) : view ((decKeys (rkVec B nr w))[r]) = roundKeyEIC nr w (nr - r) := by
  simp only [decKeys, rkVec, Vector.getElem_ofFn, roundKeyEIC]
  by_cases hc : r = 0 ∨ r = nr
  · rw [if_pos hc, if_pos (by omega), LawfulVec.view_ofB]
  · rw [if_neg hc, if_neg (by omega), LawfulDec.view_imc, LawfulVec.view_ofB]

/-- C11, 128-bit keys: the round keys of the decrypter, in the order it uses them, are those of the
equivalent inverse cipher of FIPS-197 from the last to the first. -/
theorem C11_aes128_EIC (hrv : t ≠ .riscv32) (hbe : t ≠ .bitslice .big) (key : Bytes 16) :
    ∃ d : AesDec t.Block 10, Aes128Dec.from key = .ok d ∧
      ∀ (r : Nat) (h : r < 11), into_bytes d.round_keys[r] = .ok (roundKeyEIC 10 (keyExpansion 4 key) (10 - r)) := by
  have := t.lawfulDec hrv
  refine ⟨_, t.dec128_from key, fun r h => ?_⟩
  rw [into_bytes_eq, temp_std t hrv hbe, keyExpansionWith_std', decKeys_EIC 10]
/-- C11, 192-bit keys. -/
theorem C11_aes192_EIC (hrv : t ≠ .riscv32) (hbe : t ≠ .bitslice .big) (key : Bytes 24) :
    ∃ d : AesDec t.Block 12, Aes192Dec.from key = .ok d ∧
      ∀ (r : Nat) (h : r < 13), into_bytes d.round_keys[r] = .ok (roundKeyEIC 12 (keyExpansion 6 key) (12 - r)) := by
  have := t.lawfulDec hrv
  refine ⟨_, t.dec192_from key, fun r h => ?_⟩
  rw [into_bytes_eq, temp_std t hrv hbe, keyExpansionWith_std', decKeys_EIC 12]
/-- C11, 256-bit keys. -/
theorem C11_aes256_EIC (hrv : t ≠ .riscv32) (hbe : t ≠ .bitslice .big) (key : Bytes 32) :
    ∃ d : AesDec t.Block 14, Aes256Dec.from key = .ok d ∧
      ∀ (r : Nat) (h : r < 15), into_bytes d.round_keys[r] = .ok (roundKeyEIC 14 (keyExpansion 8 key) (14 - r)) := by
  have := t.lawfulDec hrv
  refine ⟨_, t.dec256_from key, fun r h => ?_⟩
  rw [into_bytes_eq, temp_std t hrv hbe, keyExpansionWith_std', decKeys_EIC 14]

/-! ### C38: the key can be read off, on every target -/

/-- Byte `i` of the first round keys of any schedule is byte `i` of the key. -/
theorem roundKeyBytes_key (f : Nat → Word → Word) (nk : Nat) (key : Bytes (4 * nk)) (r i : Nat) (hi : i < 16)
    (h : 16 * r + i < 4 * nk) : (roundKeyBytes (keyExpansionWith f nk key) r)[i] = key[16 * r + i] := by
  simp only [roundKeyBytes, Vector.getElem_ofFn]
  rw [keyExpansionWith, dif_pos (by omega)]
  simp only [wordAt]
  have e : 4 * (4 * r + i / 4) + i % 4 = 16 * r + i := by omega
  rw [e, List.getD_eq_getElem?_getD, List.getElem?_eq_getElem (by simpa using h)]
  simp

/-- C38: on every target, the key is a prefix of the encrypter's round keys (128-bit keys: round key 0). -/
theorem C38_aes128_key (key : Bytes 16) : ∃ e : AesEnc t.Block 10, Aes128Enc.from key = .ok e ∧
    into_bytes e.round_keys[0] = .ok key := by
  refine ⟨_, t.enc128_from key, ?_⟩
  rw [into_bytes_eq]
  refine congrArg Except.ok (Vector.ext fun i hi => ?_)
  simp only [rkVec, Vector.getElem_ofFn, LawfulVec.view_ofB]
  have := roundKeyBytes_key (t.temp 4) 4 key 0 i hi (by omega)
  simp only [Nat.mul_zero, Nat.zero_add] at this
  exact this
/-- C38, 192-bit keys: round key 0 and the first 8 bytes of round key 1. -/
theorem C38_aes192_key (key : Bytes 24) : ∃ (e : AesEnc t.Block 12) (a b : Bytes 16), Aes192Enc.from key = .ok e ∧
    into_bytes e.round_keys[0] = .ok a ∧ into_bytes e.round_keys[1] = .ok b ∧
    key.toList = a.toList ++ b.toList.take 8 := by
  refine ⟨_, _, _, t.enc192_from key, into_bytes_eq _, into_bytes_eq _, ?_⟩
  apply List.ext_getElem
  · simp
  · intro i h1 h2
    have hi : i < 24 := by simpa using h1
    simp only [rkVec, Vector.getElem_ofFn, LawfulVec.view_ofB]
    by_cases h : i < 16
    · rw [List.getElem_append_left (by simpa using h)]
      have := roundKeyBytes_key (t.temp 6) 6 key 0 i h (by omega)
      simp only [Nat.mul_zero, Nat.zero_add] at this
      simp only [Vector.getElem_toList]
      exact this.symm
    · rw [List.getElem_append_right (by simpa using h)]
      have := roundKeyBytes_key (t.temp 6) 6 key 1 (i - 16) (by omega) (by omega)
      have e : 16 * 1 + (i - 16) = i := by omega
      simp only [e] at this
      simp only [List.getElem_take, Vector.getElem_toList, Vector.length_toList]
      exact this.symm
/-- C38, 256-bit keys: round keys 0 and 1. -/
theorem C38_aes256_key (key : Bytes 32) : ∃ (e : AesEnc t.Block 14) (a b : Bytes 16), Aes256Enc.from key = .ok e ∧
    into_bytes e.round_keys[0] = .ok a ∧ into_bytes e.round_keys[1] = .ok b ∧
    key.toList = a.toList ++ b.toList := by
  refine ⟨_, _, _, t.enc256_from key, into_bytes_eq _, into_bytes_eq _, ?_⟩
  apply List.ext_getElem
  · simp
  · intro i h1 h2
    have hi : i < 32 := by simpa using h1
    simp only [rkVec, Vector.getElem_ofFn, LawfulVec.view_ofB]
    by_cases h : i < 16
    · rw [List.getElem_append_left (by simpa using h)]
      have := roundKeyBytes_key (t.temp 8) 8 key 0 i h (by omega)
      simp only [Nat.mul_zero, Nat.zero_add] at this
      simp only [Vector.getElem_toList]
      exact this.symm
    · rw [List.getElem_append_right (by simpa using h)]
      have := roundKeyBytes_key (t.temp 8) 8 key 1 (i - 16) (by omega) (by omega)
      have e : 16 * 1 + (i - 16) = i := by omega
      simp only [e] at this
      simp only [Vector.getElem_toList, Vector.length_toList]
      exact this.symm

/-- C38: distinct keys give distinct encrypters, on every target. -/
theorem C38_enc_injective (k16 k16' : Bytes 16) (k24 k24' : Bytes 24) (k32 k32' : Bytes 32) :
    ((Aes128Enc.from k16 : M (AesEnc t.Block 10)) = Aes128Enc.from k16' → k16 = k16') ∧
    ((Aes192Enc.from k24 : M (AesEnc t.Block 12)) = Aes192Enc.from k24' → k24 = k24') ∧
    ((Aes256Enc.from k32 : M (AesEnc t.Block 14)) = Aes256Enc.from k32' → k32 = k32') := by
  refine ⟨fun h => ?_, fun h => ?_, fun h => ?_⟩
  · obtain ⟨e, he, hk⟩ := C38_aes128_key t k16
    obtain ⟨e', he', hk'⟩ := C38_aes128_key t k16'
    rw [he, he'] at h; cases h
    exact Except.ok.inj (hk.symm.trans hk')
  · obtain ⟨e, a, b, he, ha, hb, hk⟩ := C38_aes192_key t k24
    obtain ⟨e', a', b', he', ha', hb', hk'⟩ := C38_aes192_key t k24'
    rw [he, he'] at h; cases h
    cases Except.ok.inj (ha.symm.trans ha'); cases Except.ok.inj (hb.symm.trans hb')
    exact Vector.toList_inj.mp (hk.trans hk'.symm)
  · obtain ⟨e, a, b, he, ha, hb, hk⟩ := C38_aes256_key t k32
    obtain ⟨e', a', b', he', ha', hb', hk'⟩ := C38_aes256_key t k32'
    rw [he, he'] at h; cases h
    cases Except.ok.inj (ha.symm.trans ha'); cases Except.ok.inj (hb.symm.trans hb')
    exact Vector.toList_inj.mp (hk.trans hk'.symm)

theorem shiftRows_inj {a b : State} (h : shiftRows a = shiftRows b) : a = b := by
  rw [← invShiftRows_shiftRows a, h, invShiftRows_shiftRows]
theorem toBytes_inj {a b : State} (h : a.toBytes = b.toBytes) : a = b := by
  rw [← ofBytes_toBytes a, h, ofBytes_toBytes]

theorem rv32_imc_injective {a b : Riscv32.Block} (h : Riscv32.imc a = Riscv32.imc b) : a = b := by
  have h2 : view (Riscv32.imc a) = view (Riscv32.imc b) := congrArg view h
  rw [Riscv32.view_imc, Riscv32.view_imc, rv32Imc, rv32Imc] at h2
  have h3 := toBytes_inj h2
  have h4 : ∀ {x y : State}, invMixColumns x = invMixColumns y → x = y := fun {x y} h => by
    rw [← mixColumns_invMixColumns x, h, mixColumns_invMixColumns]
  exact view_inj (ofBytes_inj (shiftRows_inj (shiftRows_inj (h4 h3))))

/-- `imc` is injective on every target (on riscv32 it is not INVMIXCOLUMNS, but still a bijection). -/
theorem imc_injective {a b : t.Block} (h : imc a = imc b) : a = b := by
  by_cases hrv : t = .riscv32
  · subst hrv
    exact rv32_imc_injective h
  · have := t.lawfulDec hrv
    rw [← mc_imc a, h, mc_imc]

theorem decKeys_injective {nr : Nat} {a b : Vector t.Block (nr + 1)} (h : decKeys a = decKeys b) : a = b := by
  apply Vector.ext; intro i hi
  have h1 : (decKeys a)[nr - i]? = (decKeys b)[nr - i]? := by rw [h]
  rw [Vector.getElem?_eq_getElem (by omega), Vector.getElem?_eq_getElem (by omega)] at h1
  have h2 := Option.some.inj h1
  have e : nr - (nr - i) = i := by omega
  simp only [decKeys, Vector.getElem_ofFn, e] at h2
  split at h2
  · exact h2
  · exact imc_injective t h2

/-- C38: distinct keys give distinct decrypters, on every target. -/
theorem C38_dec_injective (k16 k16' : Bytes 16) (k24 k24' : Bytes 24) (k32 k32' : Bytes 32) :
    ((Aes128Dec.from k16 : M (AesDec t.Block 10)) = Aes128Dec.from k16' → k16 = k16') ∧
    ((Aes192Dec.from k24 : M (AesDec t.Block 12)) = Aes192Dec.from k24' → k24 = k24') ∧
    ((Aes256Dec.from k32 : M (AesDec t.Block 14)) = Aes256Dec.from k32' → k32 = k32') := by
  refine ⟨fun h => ?_, fun h => ?_, fun h => ?_⟩
  · apply (C38_enc_injective t k16 k16' k24 k24' k32 k32').1
    rw [t.dec128_from, t.dec128_from] at h
    have := decKeys_injective t (AesDec.mk.inj (Except.ok.inj h))
    rw [t.enc128_from, t.enc128_from, this]
  · apply (C38_enc_injective t k16 k16' k24 k24' k32 k32').2.1
    rw [t.dec192_from, t.dec192_from] at h
    have := decKeys_injective t (AesDec.mk.inj (Except.ok.inj h))
    rw [t.enc192_from, t.enc192_from, this]
  · apply (C38_enc_injective t k16 k16' k24 k24' k32 k32').2.2
    rw [t.dec256_from, t.dec256_from] at h
    have := decKeys_injective t (AesDec.mk.inj (Except.ok.inj h))
    rw [t.enc256_from, t.enc256_from, this]

/-! ### Concrete instances -/
/-- Rounds counts used by the crate. -/
example : 0 < 10 ∧ 0 < 12 ∧ 0 < 14 ∧ Target.riscv64 ≠ .riscv32 ∧ Target.riscv64 ≠ .bitslice .big := by decide
/-- Seven conversions amount to one. -/
example (e : AesEnc Target.x86.Block 10) : (CipherObj.enc e).convertN 7 = (CipherObj.enc e).convert :=
  C10_history .x86 (by decide) (by decide) _ 7

end Aes
