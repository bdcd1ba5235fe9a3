import Verif.Properties.Chain
import Verif.Properties.Data
/-!
C32: no panic and no out-of-bounds access, on every target (riscv32 and big-endian bitslice included).
In the model an index out of range, a failed assertion and an `unwrap` of an error are `.error .panic`, and a raw
read or write outside its slice is `.error .ub`; so `= .ok _` excludes all of them.
-/
namespace Aes
open Rust AesSpec Fips197 AesVec AesBlock Target

variable (t : Target)

/-- C32: key setup succeeds for every key. -/
theorem C32_key_setup (k16 : Bytes 16) (k24 : Bytes 24) (k32 : Bytes 32) :
    (∃ e : AesEnc t.Block 10, Aes128Enc.from k16 = .ok e) ∧ (∃ d : AesDec t.Block 10, Aes128Dec.from k16 = .ok d) ∧
    (∃ e : AesEnc t.Block 12, Aes192Enc.from k24 = .ok e) ∧ (∃ d : AesDec t.Block 12, Aes192Dec.from k24 = .ok d) ∧
    (∃ e : AesEnc t.Block 14, Aes256Enc.from k32 = .ok e) ∧ (∃ d : AesDec t.Block 14, Aes256Dec.from k32 = .ok d) :=
  ⟨⟨_, t.enc128_from k16⟩, ⟨_, t.dec128_from k16⟩, ⟨_, t.enc192_from k24⟩, ⟨_, t.dec192_from k24⟩,
    ⟨_, t.enc256_from k32⟩, ⟨_, t.dec256_from k32⟩⟩

/-- C32: conversions between encrypters and decrypters succeed, whatever the round keys. -/
theorem C32_conversions {nr : Nat} (hnr : 0 < nr) (e : AesEnc t.Block nr) (d : AesDec t.Block nr) :
    (∃ d', e.decrypter = .ok d') ∧ (∃ e', d.encrypter = .ok e') :=
  ⟨⟨_, decrypter_ok hnr e⟩, ⟨_, encrypter_ok hnr d⟩⟩

/-- C32: encrypting and decrypting one block succeeds, whatever the round keys and the block. -/
theorem C32_one_block {nr : Nat} (hnr : 0 < nr) (e : AesEnc t.Block nr) (d : AesDec t.Block nr) (x : t.Block) :
    (∃ y, e.encrypt_block x = .ok y) ∧ (∃ y, d.decrypt_block x = .ok y) := by
  constructor
  · unfold AesEnc.encrypt_block
    rw [sliceTo, if_pos (by simp), bind_ok, take_keys hnr]
    obtain ⟨y, hy⟩ := chain_enc_ok x (e.round_keys[0]) _
    rw [hy, bind_ok, idx, dif_pos (by omega)]
    exact ⟨_, rfl⟩
  · unfold AesDec.decrypt_block
    rw [sliceTo, if_pos (by simp), bind_ok, take_keys hnr]
    obtain ⟨y, hy⟩ := chain_dec_ok x (d.round_keys[0]) _
    rw [hy, bind_ok, idx, dif_pos (by omega)]
    exact ⟨_, rfl⟩

/-- C32: encrypting and decrypting two blocks at a time succeeds. -/
theorem C32_two_blocks {nr : Nat} (hnr : 0 < nr) (e : AesEnc t.Block nr) (d : AesDec t.Block nr) (x : t.X2) :
    (∃ y, e.encrypt_2_blocks x = .ok y) ∧ (∃ y, d.decrypt_2_blocks x = .ok y) := by
  obtain ⟨a, b, rfl⟩ := x2_surj x
  obtain ⟨⟨ea, ha⟩, ⟨da, ha'⟩⟩ := C32_one_block t hnr e d a
  obtain ⟨⟨eb, hb⟩, ⟨db, hb'⟩⟩ := C32_one_block t hnr e d b
  rw [encrypt_2_blocks_ok, decrypt_2_blocks_ok, ha, bind_ok, hb, bind_ok, ha', bind_ok, hb', bind_ok]
  exact ⟨⟨_, rfl⟩, ⟨_, rfl⟩⟩

/-- C32: encrypting and decrypting four blocks at a time succeeds. -/
theorem C32_four_blocks {nr : Nat} (hnr : 0 < nr) (e : AesEnc t.Block nr) (d : AesDec t.Block nr) (x : t.X4) :
    (∃ y, e.encrypt_4_blocks x = .ok y) ∧ (∃ y, d.decrypt_4_blocks x = .ok y) := by
  obtain ⟨p, q, rfl⟩ := x4_surj x
  obtain ⟨⟨ep, hp⟩, ⟨dp, hp'⟩⟩ := C32_two_blocks t hnr e d p
  obtain ⟨⟨eq, hq⟩, ⟨dq, hq'⟩⟩ := C32_two_blocks t hnr e d q
  rw [encrypt_4_blocks_ok2, decrypt_4_blocks_ok2, hp, bind_ok, hq, bind_ok, hp', bind_ok, hq', bind_ok]
  exact ⟨⟨_, rfl⟩, ⟨_, rfl⟩⟩

/-- C32: the conversions from and to bytes, slices and `u128` never fail. -/
theorem C32_conversions_bytes (w : Width) (x : t.Vec w) (b : Bytes w.size) (s : List U8) (n : U128) (y : t.Block) :
    (∃ v, (new b : M (t.Vec w)) = .ok v) ∧ (∃ v, (from_bytes b : M (t.Vec w)) = .ok v) ∧
    (∃ v, into_bytes x = .ok v) ∧ (∃ r, (try_from s : M (Except Nat (t.Vec w))) = .ok r) ∧
    (∃ v, (from_u128 n : M t.Block) = .ok v) ∧ (∃ v, into_u128 y = .ok v) := by
  refine ⟨⟨_, LawfulVec.new_eq b⟩, ⟨_, LawfulVec.from_bytes_eq b⟩, ⟨_, into_bytes_eq x⟩, ?_, ⟨_, LawfulVec.from_bytes_eq _⟩, ?_⟩
  · by_cases h : s.length < w.size
    · exact ⟨_, C20_try_from_short t w s h⟩
    · obtain ⟨v, _, hv, _⟩ := C20_try_from_long t w s (by omega)
      exact ⟨_, hv⟩
  · unfold into_u128; rw [into_bytes_eq, bind_ok]; exact ⟨_, rfl⟩

/-- The hypothesis `0 < nr` is needed: without rounds the chain is over an empty slice and panics. The crate
uses 10, 12 and 14. -/
example (e : AesEnc t.Block 0) (x : t.Block) : e.encrypt_block x = .error .panic := by
  unfold AesEnc.encrypt_block
  rw [sliceTo, if_pos (by simp), bind_ok, List.take_zero, chain_enc_nil, bind_error]
example : ∃ y, (⟨Vector.replicate 11 zero⟩ : AesEnc Target.riscv32.Block 10).encrypt_block zero = .ok y :=
  (C32_one_block .riscv32 (by decide) _ ⟨Vector.replicate 11 zero⟩ zero).1

end Aes
