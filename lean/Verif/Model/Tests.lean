import Verif.Model.Target
import Verif.Model.Lib
/-
src/tests.rs and the unit tests of src/aes_bitslice.rs, the crate's own test suite, as programs over the model: a test passes if it returns and fails if it panics.
Simplified: the key literals are written as bytes (src/tests.rs parses them with the `hex` crate), `lazy_static` values are constants,
and the message of a failed `assert_eq!` is not modelled.
-/
namespace Aes.Tests
open Rust AesVec AesBlock

/-- src/tests.rs:7-8. -/
def AES_128_KEY : Vector U8 16 := toBe 16 0x2b7e151628aed2a6abf7158809cf4f3c#128
/-- src/tests.rs:9-10. -/
def AES_192_KEY : Vector U8 24 := toBe 24 0x8e73b0f7da0e6452c810f32b809079e562f8ead2522c6b7b#192
/-- src/tests.rs:11-13. -/
def AES_256_KEY : Vector U8 32 :=
  toBe 32 0x603deb1015ca71be2b73aef0857d77811f352c073b6108d72d9810a30914dff4#256

/-- `assert_eq!`. -/
def assert_eq {T : Type} {n : Nat} [AesVec T n] (a b : T) : M Unit := assert (AesVec.eq a b)

section
variable (t : Target)

/-- src/tests.rs:16-25 `aesenc_test`. -/
def aesenc_test : M Unit := do
  let block : t.Block ← from_u128 0x000102030405060708090a0b0c0d0e0f
  let rk : t.Block ← from_u128 0x101112131415161718191a1b1c1d1e1f
  let enc : t.Block ← from_u128 0x7a7b4e5638782546a8c0477a3b813f43
  assert_eq (AesVec.enc block rk) enc
  assert_eq (dec_last (imc (bitxor enc rk)) zero) block

/-- The assertions about `expanded` (src/tests.rs:30-40,46-58,64-78): `expanded[i] == words[i].into()` for all `i`, in order. -/
def check_expanded {N : Nat} (expanded : Vector t.Block N) (words : Vector U128 N) : M Unit :=
  (List.finRange N).forM fun i => do assert_eq (← idx expanded i.val) (← from_u128 words[i])

/-- src/tests.rs:30-40. -/
def words128 : Vector U128 11 := #v[0x2b7e151628aed2a6abf7158809cf4f3c, 0xa0fafe1788542cb123a339392a6c7605,
  0xf2c295f27a96b9435935807a7359f67f, 0x3d80477d4716fe3e1e237e446d7a883b, 0xef44a541a8525b7fb671253bdb0bad00,
  0xd4d1c6f87c839d87caf2b8bc11f915bc, 0x6d88a37a110b3efddbf98641ca0093fd, 0x4e54f70e5f5fc9f384a64fb24ea6dc4f,
  0xead27321b58dbad2312bf5607f8d292f, 0xac7766f319fadc2128d12941575c006e, 0xd014f9a8c9ee2589e13f0cc8b6630ca6]
/-- src/tests.rs:46-58. -/
def words192 : Vector U128 13 := #v[0x8e73b0f7da0e6452c810f32b809079e5, 0x62f8ead2522c6b7bfe0c91f72402f5a5,
  0xec12068e6c827f6b0e7a95b95c56fec2, 0x4db7b4bd69b5411885a74796e92538fd, 0xe75fad44bb095386485af05721efb14f,
  0xa448f6d94d6dce24aa326360113b30e6, 0xa25e7ed583b1cf9a27f939436a94f767, 0xc0a69407d19da4e1ec1786eb6fa64971,
  0x485f703222cb8755e26d135233f0b7b3, 0x40beeb282f18a2596747d26b458c553e, 0xa7e1466c9411f1df821f750aad07d753,
  0xca4005388fcc5006282d166abc3ce7b5, 0xe98ba06f448c773c8ecc720401002202]
/-- src/tests.rs:64-78. -/
def words256 : Vector U128 15 := #v[0x603deb1015ca71be2b73aef0857d7781, 0x1f352c073b6108d72d9810a30914dff4,
  0x9ba354118e6925afa51a8b5f2067fcde, 0xa8b09c1a93d194cdbe49846eb75d5b9a, 0xd59aecb85bf3c917fee94248de8ebe96,
  0xb5a9328a2678a647983122292f6c79b3, 0x812c81addadf48ba24360af2fab8b464, 0x98c5bfc9bebd198e268c3ba709e04214,
  0x68007bacb2df331696e939e46c518d80, 0xc814e20476a9fb8a5025c02d59c58239, 0xde1369676ccc5a71fa2563959674ee15,
  0x5886ca5d2e2f31d77e0af1fa27cf73c3, 0x749c47ab18501ddae2757e4f7401905a, 0xcafaaae3e4d59b349adf6acebd10190d,
  0xfe4890d1e6188d0b046df344706c631e]

/-- src/tests.rs:27-41. -/
def expansion_of_128_bit_key : M Unit := do check_expanded t (← keygen_128 AES_128_KEY) words128
/-- src/tests.rs:43-59. -/
def expansion_of_192_bit_key : M Unit := do check_expanded t (← keygen_192 AES_192_KEY) words192
/-- src/tests.rs:61-79. -/
def expansion_of_256_bit_key : M Unit := do check_expanded t (← keygen_256 AES_256_KEY) words256

/-- A vector: plaintext and ciphertext. -/
abbrev Vec := U128 × U128
/-- Its blocks (`.into()`). -/
def vec (v : Vec) : M (t.Block × t.Block) := do pure (← from_u128 v.1, ← from_u128 v.2)

/-- src/tests.rs:82-108 `aes_test!(enc: ...)`. -/
def aes_test_enc {nr : Nat} (enc : AesEnc t.Block nr) (vectors : Vector Vec 4) : M Unit := do
  let v0 ← vec t vectors[0]
  let v1 ← vec t vectors[1]
  let v2 ← vec t vectors[2]
  let v3 ← vec t vectors[3]
  assert_eq (← enc.encrypt_block v0.1) v0.2
  assert_eq (← enc.encrypt_block v1.1) v1.2
  assert_eq (← enc.encrypt_2_blocks (AesBlockX2.from_pair (v0.1, v1.1) : t.X2)) (AesBlockX2.from_pair (v0.2, v1.2))
  assert_eq (← enc.encrypt_block v2.1) v2.2
  assert_eq (← enc.encrypt_block v3.1) v3.2
  assert_eq (← enc.encrypt_2_blocks (AesBlockX2.from_pair (v2.1, v3.1) : t.X2)) (AesBlockX2.from_pair (v2.2, v3.2))
  assert_eq (← enc.encrypt_4_blocks (AesBlockX4.from_quad (v0.1, v1.1, v2.1, v3.1) : t.X4))
    (AesBlockX4.from_quad (v0.2, v1.2, v2.2, v3.2))
/-- src/tests.rs:109-135 `aes_test!(dec: ...)`. -/
def aes_test_dec {nr : Nat} (dec : AesDec t.Block nr) (vectors : Vector Vec 4) : M Unit := do
  let v0 ← vec t vectors[0]
  let v1 ← vec t vectors[1]
  let v2 ← vec t vectors[2]
  let v3 ← vec t vectors[3]
  assert_eq (← dec.decrypt_block v0.2) v0.1
  assert_eq (← dec.decrypt_block v1.2) v1.1
  assert_eq (← dec.decrypt_2_blocks (AesBlockX2.from_pair (v0.2, v1.2) : t.X2)) (AesBlockX2.from_pair (v0.1, v1.1))
  assert_eq (← dec.decrypt_block v2.2) v2.1
  assert_eq (← dec.decrypt_block v3.2) v3.1
  assert_eq (← dec.decrypt_2_blocks (AesBlockX2.from_pair (v2.2, v3.2) : t.X2)) (AesBlockX2.from_pair (v2.1, v3.1))
  assert_eq (← dec.decrypt_4_blocks (AesBlockX4.from_quad (v0.2, v1.2, v2.2, v3.2) : t.X4))
    (AesBlockX4.from_quad (v0.1, v1.1, v2.1, v3.1))

/-- src/tests.rs:140-156, the first four. -/
def AES_128_VECTORS : Vector Vec 4 := #v[
  (0x6bc1bee22e409f96e93d7e117393172a, 0x3ad77bb40d7a3660a89ecaf32466ef97),
  (0xae2d8a571e03ac9c9eb76fac45af8e51, 0xf5d3d58503b9699de785895a96fdbaaf),
  (0x30c81c46a35ce411e5fbc1191a0a52ef, 0x43b1cd7f598ece23881b00e3ed030688),
  (0xf69f2445df4f9b17ad2b417be66c3710, 0x7b0c785e27e8ad3f8223207104725dd4)]
/-- src/tests.rs:157-160, `AES_128_VECTORS[4]`. -/
def AES_128_VECTORS_4 : Vec := (0x3243f6a8885a308d313198a2e0370734, 0x3925841d02dc09fbdc118597196a0b32)
/-- src/tests.rs:162-179. -/
def AES_192_VECTORS : Vector Vec 4 := #v[
  (0x6bc1bee22e409f96e93d7e117393172a, 0xbd334f1d6e45f25ff712a214571fa5cc),
  (0xae2d8a571e03ac9c9eb76fac45af8e51, 0x974104846d0ad3ad7734ecb3ecee4eef),
  (0x30c81c46a35ce411e5fbc1191a0a52ef, 0xef7afd2270e2e60adce0ba2face6444e),
  (0xf69f2445df4f9b17ad2b417be66c3710, 0x9a4b41ba738d6c72fb16691603c18e0e)]
/-- src/tests.rs:180-197. -/
def AES_256_VECTORS : Vector Vec 4 := #v[
  (0x6bc1bee22e409f96e93d7e117393172a, 0xf3eed1bdb5d2a03c064b5a7e3db181f8),
  (0xae2d8a571e03ac9c9eb76fac45af8e51, 0x591ccb10d410ed26dc5ba74a31362870),
  (0x30c81c46a35ce411e5fbc1191a0a52ef, 0xb6ed21b99ca6f4f9f153e7b1beafed1d),
  (0xf69f2445df4f9b17ad2b417be66c3710, 0x23304b7a39f9f3ff067d8d8f9e24ecc7)]

/-- src/tests.rs:200-217 `aes_128_test`. -/
def aes_128_test : M Unit := do
  let enc : AesEnc t.Block 10 ← Aes128Enc.from AES_128_KEY
  aes_test_enc t enc AES_128_VECTORS
  let v ← vec t AES_128_VECTORS_4
  assert_eq (← enc.encrypt_block v.1) v.2
  let dec ← enc.decrypter
  aes_test_dec t dec AES_128_VECTORS
  assert_eq (← dec.decrypt_block v.2) v.1
/-- src/tests.rs:219-228 `aes_192_test`. -/
def aes_192_test : M Unit := do
  let enc : AesEnc t.Block 12 ← Aes192Enc.from AES_192_KEY
  aes_test_enc t enc AES_192_VECTORS
  let dec ← enc.decrypter
  aes_test_dec t dec AES_192_VECTORS
/-- src/tests.rs:230-239 `aes_256_test`. -/
def aes_256_test : M Unit := do
  let enc : AesEnc t.Block 14 ← Aes256Enc.from AES_256_KEY
  aes_test_enc t enc AES_256_VECTORS
  let dec ← enc.decrypter
  aes_test_dec t dec AES_256_VECTORS

/-- The seven tests of src/tests.rs:16-239. -/
def suite : List (M Unit) := [aesenc_test t, expansion_of_128_bit_key t, expansion_of_192_bit_key t, expansion_of_256_bit_key t,
  aes_128_test t, aes_192_test t, aes_256_test t]
end

section
variable (e : Endian)
/-- src/aes_bitslice.rs:416 and 427: the bytes 0 to 15. -/
def counting : Vector U8 16 := #v[0, 1, 2, 3, 4, 5, 6, 7, 8, 9, 10, 11, 12, 13, 14, 15]
/-- src/aes_bitslice.rs:414-423 `test_subbytes`. -/
def test_subbytes : M Unit :=
  assert (toNe e 16 (Bitslice.subbytes (fromNe e 128 counting)) ==
    #v[0x63, 0x7c, 0x77, 0x7b, 0xf2, 0x6b, 0x6f, 0xc5, 0x30, 0x01, 0x67, 0x2b, 0xfe, 0xd7, 0xab, 0x76])
/-- src/aes_bitslice.rs:425-434 `test_invsubbytes`. -/
def test_invsubbytes : M Unit :=
  assert (toNe e 16 (Bitslice.invsubbytes (fromNe e 128 counting)) ==
    #v[0x52, 0x09, 0x6a, 0xd5, 0x30, 0x36, 0xa5, 0x38, 0xbf, 0x40, 0xa3, 0x9e, 0x81, 0xf3, 0xd7, 0xfb])
end

/-- The unit tests in the selected modules: only src/aes_bitslice.rs:410-435 has any. -/
def unit_tests : Target → List (M Unit)
  | .bitslice e => [test_subbytes e, test_invsubbytes e]
  | _ => []

/-- `cargo test` on target `t`: src/tests.rs and src/aes_bitslice.rs:410-435 (there are no doc tests). -/
def all (t : Target) : List (M Unit) := suite t ++ unit_tests t
end Aes.Tests
