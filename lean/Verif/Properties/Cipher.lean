import Verif.Proofs.EndToEnd
/-!
C01-C06, C31: block encryption and decryption are AES (FIPS-197) and invert each other.

Every statement is about calls of the public API on a target `t` (a module combination selected by the
crate's cfg ladders); bytes go in through `From<[u8; 16]>` and come out through `From<AesBlock> for [u8; 16]`.
`= .ok v` says that the program neither panics nor has undefined behaviour, and results in `v`.
The excluded targets violate the property: see Verif/Properties/Riscv32.lean and BigEndian.lean.
-/
namespace Aes
open Rust AesSpec Fips197

/-- C01: AES-128 encryption is FIPS-197 CIPHER with `Nr = 10` under KEYEXPANSION(key). -/
theorem C01_aes128_encrypt (t : Target) (hrv : t ≠ .riscv32) (hbe : t ≠ .bitslice .big)
    (key : Bytes 16) (pt : Bytes 16) :
    (do
      let e : AesEnc t.Block 10 ← Aes128Enc.from key
      let c ← e.encrypt_block (← AesVec.from_bytes pt)
      into_bytes c) = .ok (Fips197.aes128 key pt) := by
  have := t.lawfulPre hrv
  rw [t.enc128_from, bind_ok, LawfulVec.from_bytes_eq, bind_ok, encrypt_rkVec (by omega), bind_ok, into_bytes_eq,
    LawfulVec.view_ofB, LawfulVec.view_ofB, Target.temp_std t hrv hbe, Target.keyExpansionWith_std']
  rfl

/-- C02: AES-192 encryption is FIPS-197 CIPHER with `Nr = 12` under KEYEXPANSION(key). -/
theorem C02_aes192_encrypt (t : Target) (hrv : t ≠ .riscv32) (hbe : t ≠ .bitslice .big)
    (key : Bytes 24) (pt : Bytes 16) :
    (do
      let e : AesEnc t.Block 12 ← Aes192Enc.from key
      let c ← e.encrypt_block (← AesVec.from_bytes pt)
      into_bytes c) = .ok (Fips197.aes192 key pt) := by
  have := t.lawfulPre hrv
  rw [t.enc192_from, bind_ok, LawfulVec.from_bytes_eq, bind_ok, encrypt_rkVec (by omega), bind_ok, into_bytes_eq,
    LawfulVec.view_ofB, LawfulVec.view_ofB, Target.temp_std t hrv hbe, Target.keyExpansionWith_std']
  rfl

/-- C03: AES-256 encryption is FIPS-197 CIPHER with `Nr = 14` under KEYEXPANSION(key). -/
theorem C03_aes256_encrypt (t : Target) (hrv : t ≠ .riscv32) (hbe : t ≠ .bitslice .big)
    (key : Bytes 32) (pt : Bytes 16) :
    (do
      let e : AesEnc t.Block 14 ← Aes256Enc.from key
      let c ← e.encrypt_block (← AesVec.from_bytes pt)
      into_bytes c) = .ok (Fips197.aes256 key pt) := by
  have := t.lawfulPre hrv
  rw [t.enc256_from, bind_ok, LawfulVec.from_bytes_eq, bind_ok, encrypt_rkVec (by omega), bind_ok, into_bytes_eq,
    LawfulVec.view_ofB, LawfulVec.view_ofB, Target.temp_std t hrv hbe, Target.keyExpansionWith_std']
  rfl

/-- C04, 128-bit keys: decryption is FIPS-197 INVCIPHER (the plain inverse cipher of section 5.3). -/
theorem C04_aes128_decrypt (t : Target) (hrv : t ≠ .riscv32) (hbe : t ≠ .bitslice .big)
    (key : Bytes 16) (ct : Bytes 16) :
    (do
      let d : AesDec t.Block 10 ← Aes128Dec.from key
      let p ← d.decrypt_block (← AesVec.from_bytes ct)
      into_bytes p) = .ok (Fips197.aes128Inv key ct) := by
  have := t.lawfulPre hrv
  have := t.lawfulDec hrv
  rw [t.dec128_from, bind_ok, LawfulVec.from_bytes_eq, bind_ok, decrypt_rkVec (by omega), bind_ok, into_bytes_eq,
    LawfulVec.view_ofB, LawfulVec.view_ofB, Target.temp_std t hrv hbe, Target.keyExpansionWith_std']
  rfl
/-- C04, 192-bit keys. -/
theorem C04_aes192_decrypt (t : Target) (hrv : t ≠ .riscv32) (hbe : t ≠ .bitslice .big)
    (key : Bytes 24) (ct : Bytes 16) :
    (do
      let d : AesDec t.Block 12 ← Aes192Dec.from key
      let p ← d.decrypt_block (← AesVec.from_bytes ct)
      into_bytes p) = .ok (Fips197.aes192Inv key ct) := by
  have := t.lawfulPre hrv
  have := t.lawfulDec hrv
  rw [t.dec192_from, bind_ok, LawfulVec.from_bytes_eq, bind_ok, decrypt_rkVec (by omega), bind_ok, into_bytes_eq,
    LawfulVec.view_ofB, LawfulVec.view_ofB, Target.temp_std t hrv hbe, Target.keyExpansionWith_std']
  rfl
/-- C04, 256-bit keys. -/
theorem C04_aes256_decrypt (t : Target) (hrv : t ≠ .riscv32) (hbe : t ≠ .bitslice .big)
    (key : Bytes 32) (ct : Bytes 16) :
    (do
      let d : AesDec t.Block 14 ← Aes256Dec.from key
      let p ← d.decrypt_block (← AesVec.from_bytes ct)
      into_bytes p) = .ok (Fips197.aes256Inv key ct) := by
  have := t.lawfulPre hrv
  have := t.lawfulDec hrv
  rw [t.dec256_from, bind_ok, LawfulVec.from_bytes_eq, bind_ok, decrypt_rkVec (by omega), bind_ok, into_bytes_eq,
    LawfulVec.view_ofB, LawfulVec.view_ofB, Target.temp_std t hrv hbe, Target.keyExpansionWith_std']
  rfl

/-- C05, for any encrypter at all (any round keys, any positive number of rounds): decrypting with
`e.decrypter()` undoes `e.encrypt_block`. Holds on big-endian bitslice too. -/
theorem C05_decrypt_encrypt (t : Target) (hrv : t ≠ .riscv32) {nr : Nat} (hnr : 0 < nr) (e : AesEnc t.Block nr)
    (p : t.Block) :
    (do
      let d ← e.decrypter
      let c ← e.encrypt_block p
      d.decrypt_block c) = .ok p := by
  have := t.lawfulPre hrv
  have := t.lawfulDec hrv
  rw [decrypter_ok hnr, bind_ok, encrypt_block_ok hnr, bind_ok, decrypt_block_decKeys hnr, LawfulVec.view_ofB,
    invCipher_cipher, LawfulVec.ofB_view]

/-- C05, 128-bit keys: a decrypter and an encrypter made from the same key. -/
theorem C05_aes128 (t : Target) (hrv : t ≠ .riscv32) (key : Bytes 16) (pt : Bytes 16) :
    (do
      let e : AesEnc t.Block 10 ← Aes128Enc.from key
      let d : AesDec t.Block 10 ← Aes128Dec.from key
      let p ← d.decrypt_block (← e.encrypt_block (← AesVec.from_bytes pt))
      into_bytes p) = .ok pt := by
  have := t.lawfulPre hrv
  have := t.lawfulDec hrv
  rw [t.enc128_from, bind_ok, t.dec128_from, bind_ok, LawfulVec.from_bytes_eq, bind_ok, encrypt_rkVec (by omega), bind_ok,
    decrypt_rkVec (by omega), bind_ok, into_bytes_eq, LawfulVec.view_ofB, LawfulVec.view_ofB, LawfulVec.view_ofB,
    invCipher_cipher]
/-- C05, 192-bit keys. -/
theorem C05_aes192 (t : Target) (hrv : t ≠ .riscv32) (key : Bytes 24) (pt : Bytes 16) :
    (do
      let e : AesEnc t.Block 12 ← Aes192Enc.from key
      let d : AesDec t.Block 12 ← Aes192Dec.from key
      let p ← d.decrypt_block (← e.encrypt_block (← AesVec.from_bytes pt))
      into_bytes p) = .ok pt := by
  have := t.lawfulPre hrv
  have := t.lawfulDec hrv
  rw [t.enc192_from, bind_ok, t.dec192_from, bind_ok, LawfulVec.from_bytes_eq, bind_ok, encrypt_rkVec (by omega), bind_ok,
    decrypt_rkVec (by omega), bind_ok, into_bytes_eq, LawfulVec.view_ofB, LawfulVec.view_ofB, LawfulVec.view_ofB,
    invCipher_cipher]
/-- C05, 256-bit keys. -/
theorem C05_aes256 (t : Target) (hrv : t ≠ .riscv32) (key : Bytes 32) (pt : Bytes 16) :
    (do
      let e : AesEnc t.Block 14 ← Aes256Enc.from key
      let d : AesDec t.Block 14 ← Aes256Dec.from key
      let p ← d.decrypt_block (← e.encrypt_block (← AesVec.from_bytes pt))
      into_bytes p) = .ok pt := by
  have := t.lawfulPre hrv
  have := t.lawfulDec hrv
  rw [t.enc256_from, bind_ok, t.dec256_from, bind_ok, LawfulVec.from_bytes_eq, bind_ok, encrypt_rkVec (by omega), bind_ok,
    decrypt_rkVec (by omega), bind_ok, into_bytes_eq, LawfulVec.view_ofB, LawfulVec.view_ofB, LawfulVec.view_ofB,
    invCipher_cipher]

/-- C06, for any encrypter at all: `e.encrypt_block` undoes decryption with `e.decrypter()`, so every block
is the encryption of some block. -/
theorem C06_encrypt_decrypt (t : Target) (hrv : t ≠ .riscv32) {nr : Nat} (hnr : 0 < nr) (e : AesEnc t.Block nr)
    (c : t.Block) :
    (do
      let d ← e.decrypter
      let p ← d.decrypt_block c
      e.encrypt_block p) = .ok c := by
  have := t.lawfulPre hrv
  have := t.lawfulDec hrv
  rw [decrypter_ok hnr, bind_ok, decrypt_block_decKeys hnr, bind_ok, encrypt_block_ok hnr, LawfulVec.view_ofB,
    cipher_invCipher, LawfulVec.ofB_view]

/-- C06, for any decrypter at all, with the encrypter derived from it. -/
theorem C06_encrypter (t : Target) (hrv : t ≠ .riscv32) {nr : Nat} (hnr : 0 < nr) (d : AesDec t.Block nr)
    (c : t.Block) :
    (do
      let e ← d.encrypter
      let p ← d.decrypt_block c
      e.encrypt_block p) = .ok c := by
  have := t.lawfulDec hrv
  have h := C06_encrypt_decrypt t hrv hnr ⟨encKeys d.round_keys⟩ c
  rw [decrypter_ok hnr, bind_ok, decKeys_encKeys] at h
  rw [encrypter_ok hnr, bind_ok]; exact h

/-- C06, 128-bit keys. -/
theorem C06_aes128 (t : Target) (hrv : t ≠ .riscv32) (key : Bytes 16) (ct : Bytes 16) :
    (do
      let e : AesEnc t.Block 10 ← Aes128Enc.from key
      let d : AesDec t.Block 10 ← Aes128Dec.from key
      let c ← e.encrypt_block (← d.decrypt_block (← AesVec.from_bytes ct))
      into_bytes c) = .ok ct := by
  have := t.lawfulPre hrv
  have := t.lawfulDec hrv
  rw [t.enc128_from, bind_ok, t.dec128_from, bind_ok, LawfulVec.from_bytes_eq, bind_ok, decrypt_rkVec (by omega), bind_ok,
    encrypt_rkVec (by omega), bind_ok, into_bytes_eq, LawfulVec.view_ofB, LawfulVec.view_ofB, LawfulVec.view_ofB,
    cipher_invCipher]
/-- C06, 192-bit keys. -/
theorem C06_aes192 (t : Target) (hrv : t ≠ .riscv32) (key : Bytes 24) (ct : Bytes 16) :
    (do
      let e : AesEnc t.Block 12 ← Aes192Enc.from key
      let d : AesDec t.Block 12 ← Aes192Dec.from key
      let c ← e.encrypt_block (← d.decrypt_block (← AesVec.from_bytes ct))
      into_bytes c) = .ok ct := by
  have := t.lawfulPre hrv
  have := t.lawfulDec hrv
  rw [t.enc192_from, bind_ok, t.dec192_from, bind_ok, LawfulVec.from_bytes_eq, bind_ok, decrypt_rkVec (by omega), bind_ok,
    encrypt_rkVec (by omega), bind_ok, into_bytes_eq, LawfulVec.view_ofB, LawfulVec.view_ofB, LawfulVec.view_ofB,
    cipher_invCipher]
/-- C06, 256-bit keys. -/
theorem C06_aes256 (t : Target) (hrv : t ≠ .riscv32) (key : Bytes 32) (ct : Bytes 16) :
    (do
      let e : AesEnc t.Block 14 ← Aes256Enc.from key
      let d : AesDec t.Block 14 ← Aes256Dec.from key
      let c ← e.encrypt_block (← d.decrypt_block (← AesVec.from_bytes ct))
      into_bytes c) = .ok ct := by
  have := t.lawfulPre hrv
  have := t.lawfulDec hrv
  rw [t.enc256_from, bind_ok, t.dec256_from, bind_ok, LawfulVec.from_bytes_eq, bind_ok, decrypt_rkVec (by omega), bind_ok,
    encrypt_rkVec (by omega), bind_ok, into_bytes_eq, LawfulVec.view_ofB, LawfulVec.view_ofB, LawfulVec.view_ofB,
    cipher_invCipher]

/-- C31: every encrypter is a permutation of the blocks. -/
theorem C31_encrypt_permutation (t : Target) (hrv : t ≠ .riscv32) {nr : Nat} (hnr : 0 < nr) (e : AesEnc t.Block nr) :
    (∀ p q, e.encrypt_block p = e.encrypt_block q → p = q) ∧
    (∀ c, ∃ p, e.encrypt_block p = .ok c) := by
  have := t.lawfulPre hrv
  have := t.lawfulDec hrv
  constructor
  · intro p q h
    have hp := C05_decrypt_encrypt t hrv hnr e p
    have hq := C05_decrypt_encrypt t hrv hnr e q
    rw [h, hq] at hp
    exact (Except.ok.inj hp).symm
  · intro c
    have h := C06_encrypt_decrypt t hrv hnr e c
    rw [decrypter_ok hnr, bind_ok, decrypt_block_decKeys hnr, bind_ok] at h
    exact ⟨_, h⟩

/-- C31: every decrypter is a permutation of the blocks. -/
theorem C31_decrypt_permutation (t : Target) (hrv : t ≠ .riscv32) {nr : Nat} (hnr : 0 < nr) (d : AesDec t.Block nr) :
    (∀ c c', d.decrypt_block c = d.decrypt_block c' → c = c') ∧
    (∀ p, ∃ c, d.decrypt_block c = .ok p) := by
  have := t.lawfulPre hrv
  have := t.lawfulDec hrv
  constructor
  · intro p q h
    have hp := C06_encrypter t hrv hnr d p
    have hq := C06_encrypter t hrv hnr d q
    rw [h, hq] at hp
    exact (Except.ok.inj hp).symm
  · intro p
    have h := C05_decrypt_encrypt t hrv hnr ⟨encKeys d.round_keys⟩ p
    rw [decrypter_ok hnr, bind_ok, encrypt_block_ok hnr, bind_ok, decKeys_encKeys] at h
    exact ⟨_, h⟩

/-! ### Concrete instances (tests.rs): the hypotheses are met, and the specification is the published AES -/

/-- The AES-128 key of src/tests.rs:7-8. -/
def exKey128 : Bytes 16 := #v[0x2b, 0x7e, 0x15, 0x16, 0x28, 0xae, 0xd2, 0xa6, 0xab, 0xf7, 0x15, 0x88, 0x09, 0xcf, 0x4f, 0x3c]
/-- First plaintext of src/tests.rs. -/
def exPt : Bytes 16 := #v[0x6b, 0xc1, 0xbe, 0xe2, 0x2e, 0x40, 0x9f, 0x96, 0xe9, 0x3d, 0x7e, 0x11, 0x73, 0x93, 0x17, 0x2a]
/-- Its AES-128 encryption. -/
def exCt128 : Bytes 16 := #v[0x3a, 0xd7, 0x7b, 0xb4, 0x0d, 0x7a, 0x36, 0x60, 0xa8, 0x9e, 0xca, 0xf3, 0x24, 0x66, 0xef, 0x97]

example : Target.table ≠ .riscv32 ∧ Target.table ≠ .bitslice .big := by decide

end Aes
