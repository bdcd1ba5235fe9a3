import Verif.Properties.Cipher
import Verif.Proofs.Decide
/-!
Tests, not properties: the NIST/FIPS vectors of src/tests.rs run on the model of the table-based code in the kernel,
and carried over to the specification and to every other target by C01-C04. They check that the specification is
the published AES, and give concrete instances of C01-C06.
-/
namespace Aes
open Rust AesSpec Fips197

set_option maxRecDepth 100000

/-- The AES-192 key of src/tests.rs:9-10. -/
def exKey192 : Bytes 24 := #v[0x8e, 0x73, 0xb0, 0xf7, 0xda, 0x0e, 0x64, 0x52, 0xc8, 0x10, 0xf3, 0x2b, 0x80, 0x90, 0x79, 0xe5,
  0x62, 0xf8, 0xea, 0xd2, 0x52, 0x2c, 0x6b, 0x7b]
/-- The AES-256 key of src/tests.rs:11-13. -/
def exKey256 : Bytes 32 := #v[0x60, 0x3d, 0xeb, 0x10, 0x15, 0xca, 0x71, 0xbe, 0x2b, 0x73, 0xae, 0xf0, 0x85, 0x7d, 0x77, 0x81,
  0x1f, 0x35, 0x2c, 0x07, 0x3b, 0x61, 0x08, 0xd7, 0x2d, 0x98, 0x10, 0xa3, 0x09, 0x14, 0xdf, 0xf4]
/-- First AES-192 ciphertext of src/tests.rs. -/
def exCt192 : Bytes 16 := #v[0xbd, 0x33, 0x4f, 0x1d, 0x6e, 0x45, 0xf2, 0x5f, 0xf7, 0x12, 0xa2, 0x14, 0x57, 0x1f, 0xa5, 0xcc]
/-- First AES-256 ciphertext of src/tests.rs. -/
def exCt256 : Bytes 16 := #v[0xf3, 0xee, 0xd1, 0xbd, 0xb5, 0xd2, 0xa0, 0x3c, 0x06, 0x4b, 0x5a, 0x7e, 0x3d, 0xb1, 0x81, 0xf8]

/-- src/tests.rs:199-203 on the model of the table-based code: evaluated in the kernel. -/
theorem ex_table_128 : (do
    let e : AesEnc Target.table.Block 10 ← Aes128Enc.from exKey128
    let c ← e.encrypt_block (← AesVec.from_bytes exPt)
    into_bytes c) = .ok exCt128 := by decide +kernel
/-- src/tests.rs:221-225. -/
theorem ex_table_192 : (do
    let e : AesEnc Target.table.Block 12 ← Aes192Enc.from exKey192
    let c ← e.encrypt_block (← AesVec.from_bytes exPt)
    into_bytes c) = .ok exCt192 := by decide +kernel
/-- src/tests.rs:232-236. -/
theorem ex_table_256 : (do
    let e : AesEnc Target.table.Block 14 ← Aes256Enc.from exKey256
    let c ← e.encrypt_block (← AesVec.from_bytes exPt)
    into_bytes c) = .ok exCt256 := by decide +kernel

/-- The specification gives the published vector (SP 800-38A F.1.1). -/
theorem ex_spec_128 : Fips197.aes128 exKey128 exPt = exCt128 :=
  Except.ok.inj ((C01_aes128_encrypt .table (by decide) (by decide) _ _).symm.trans ex_table_128)
/-- The specification gives the published vector (SP 800-38A F.1.3). -/
theorem ex_spec_192 : Fips197.aes192 exKey192 exPt = exCt192 :=
  Except.ok.inj ((C02_aes192_encrypt .table (by decide) (by decide) _ _).symm.trans ex_table_192)
/-- The specification gives the published vector (SP 800-38A F.1.5). -/
theorem ex_spec_256 : Fips197.aes256 exKey256 exPt = exCt256 :=
  Except.ok.inj ((C03_aes256_encrypt .table (by decide) (by decide) _ _).symm.trans ex_table_256)

/-- The vector on any other target, for instance 512-bit VAES, Arm and RISC-V-64, through C01. -/
example (t : Target) (ht : t = .x86Vaes512 ∨ t = .arm true ∨ t = .riscv64 ∨ t = .bitslice .little) : (do
    let e : AesEnc t.Block 10 ← Aes128Enc.from exKey128
    let c ← e.encrypt_block (← AesVec.from_bytes exPt)
    into_bytes c) = .ok exCt128 := by
  rw [C01_aes128_encrypt t (by rintro rfl; simp at ht) (by rintro rfl; simp at ht), ex_spec_128]

/-- The same for decryption (src/tests.rs:210-216), through C04 and C05. -/
example (t : Target) (hrv : t ≠ .riscv32) (hbe : t ≠ .bitslice .big) : (do
    let d : AesDec t.Block 14 ← Aes256Dec.from exKey256
    let p ← d.decrypt_block (← AesVec.from_bytes exCt256)
    into_bytes p) = .ok exPt := by
  rw [C04_aes256_decrypt t hrv hbe, ← ex_spec_256]
  exact congrArg Except.ok (invCipher_cipher ..)

end Aes
