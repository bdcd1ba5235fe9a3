import Verif.Gen.LibPre
/-
The tests of src/tests.rs, test by test.
Generated by tools/rust2lean.py; do not edit.
-/
namespace RustSrc.Lib.Pre.Tests
open Rust
open RustSrc.Core
variable [Cfg] {B X2 X4 : Type} [Aes.AesBlock B] [Aes.AesBlockX2 B X2] [Aes.AesBlockX4 B X2 X4] [HasPre B]

/-- src/tests.rs:7-8 `AES_128_KEY`. -/
def AES_128_KEY : M (Vector U8 16) :=
  unwrap (from_hex 16 ['2', 'b', '7', 'e', '1', '5', '1', '6', '2', '8', 'a', 'e', 'd', '2', 'a', '6', 'a', 'b', 'f', '7', '1', '5', '8', '8', '0', '9', 'c', 'f', '4', 'f', '3', 'c'])

/-- src/tests.rs:9-10 `AES_192_KEY`. -/
def AES_192_KEY : M (Vector U8 24) :=
  unwrap (from_hex 24 ['8', 'e', '7', '3', 'b', '0', 'f', '7', 'd', 'a', '0', 'e', '6', '4', '5', '2', 'c', '8', '1', '0', 'f', '3', '2', 'b', '8', '0', '9', '0', '7', '9', 'e', '5', '6', '2', 'f', '8', 'e', 'a', 'd', '2', '5', '2', '2', 'c', '6', 'b', '7', 'b'])

/-- src/tests.rs:11-13 `AES_256_KEY`. -/
def AES_256_KEY : M (Vector U8 32) :=
  unwrap (from_hex 32 ['6', '0', '3', 'd', 'e', 'b', '1', '0', '1', '5', 'c', 'a', '7', '1', 'b', 'e', '2', 'b', '7', '3', 'a', 'e', 'f', '0', '8', '5', '7', 'd', '7', '7', '8', '1', '1', 'f', '3', '5', '2', 'c', '0', '7', '3', 'b', '6', '1', '0', '8', 'd', '7', '2', 'd', '9', '8', '1', '0', 'a', '3', '0', '9', '1', '4', 'd', 'f', 'f', '4'])

/-- src/tests.rs:17-25 `aesenc_test`. -/
def aesenc_test : M Unit := do
  let block : B ← AesBlock.from_u128 0x102030405060708090a0b0c0d0e0f#128
  let rk : B ← AesBlock.from_u128 0x101112131415161718191a1b1c1d1e1f#128
  let enc : B ← AesBlock.from_u128 0x7a7b4e5638782546a8c0477a3b813f43#128
  assert (Aes.AesVec.eq (Aes.AesVec.enc block rk) enc)
  assert (Aes.AesVec.eq (Aes.AesVec.dec_last (Aes.AesBlock.imc (Aes.AesVec.bitxor enc rk)) Aes.AesVec.zero) block)
  pure ()

/-- src/tests.rs:28-41 `expansion_of_128_bit_key`. -/
def expansion_of_128_bit_key : M Unit := do
  let expanded : Vector B 11 ← Aes.AesBlock.keygen_128 (← (AES_128_KEY : M (Vector U8 16)))
  assert (Aes.AesVec.eq expanded[0] (← AesBlock.from_u128 0x2b7e151628aed2a6abf7158809cf4f3c#128))
  assert (Aes.AesVec.eq expanded[1] (← AesBlock.from_u128 0xa0fafe1788542cb123a339392a6c7605#128))
  assert (Aes.AesVec.eq expanded[2] (← AesBlock.from_u128 0xf2c295f27a96b9435935807a7359f67f#128))
  assert (Aes.AesVec.eq expanded[3] (← AesBlock.from_u128 0x3d80477d4716fe3e1e237e446d7a883b#128))
  assert (Aes.AesVec.eq expanded[4] (← AesBlock.from_u128 0xef44a541a8525b7fb671253bdb0bad00#128))
  assert (Aes.AesVec.eq expanded[5] (← AesBlock.from_u128 0xd4d1c6f87c839d87caf2b8bc11f915bc#128))
  assert (Aes.AesVec.eq expanded[6] (← AesBlock.from_u128 0x6d88a37a110b3efddbf98641ca0093fd#128))
  assert (Aes.AesVec.eq expanded[7] (← AesBlock.from_u128 0x4e54f70e5f5fc9f384a64fb24ea6dc4f#128))
  assert (Aes.AesVec.eq expanded[8] (← AesBlock.from_u128 0xead27321b58dbad2312bf5607f8d292f#128))
  assert (Aes.AesVec.eq expanded[9] (← AesBlock.from_u128 0xac7766f319fadc2128d12941575c006e#128))
  assert (Aes.AesVec.eq expanded[10] (← AesBlock.from_u128 0xd014f9a8c9ee2589e13f0cc8b6630ca6#128))
  pure ()

/-- src/tests.rs:44-59 `expansion_of_192_bit_key`. -/
def expansion_of_192_bit_key : M Unit := do
  let expanded : Vector B 13 ← Aes.AesBlock.keygen_192 (← (AES_192_KEY : M (Vector U8 24)))
  assert (Aes.AesVec.eq expanded[0] (← AesBlock.from_u128 0x8e73b0f7da0e6452c810f32b809079e5#128))
  assert (Aes.AesVec.eq expanded[1] (← AesBlock.from_u128 0x62f8ead2522c6b7bfe0c91f72402f5a5#128))
  assert (Aes.AesVec.eq expanded[2] (← AesBlock.from_u128 0xec12068e6c827f6b0e7a95b95c56fec2#128))
  assert (Aes.AesVec.eq expanded[3] (← AesBlock.from_u128 0x4db7b4bd69b5411885a74796e92538fd#128))
  assert (Aes.AesVec.eq expanded[4] (← AesBlock.from_u128 0xe75fad44bb095386485af05721efb14f#128))
  assert (Aes.AesVec.eq expanded[5] (← AesBlock.from_u128 0xa448f6d94d6dce24aa326360113b30e6#128))
  assert (Aes.AesVec.eq expanded[6] (← AesBlock.from_u128 0xa25e7ed583b1cf9a27f939436a94f767#128))
  assert (Aes.AesVec.eq expanded[7] (← AesBlock.from_u128 0xc0a69407d19da4e1ec1786eb6fa64971#128))
  assert (Aes.AesVec.eq expanded[8] (← AesBlock.from_u128 0x485f703222cb8755e26d135233f0b7b3#128))
  assert (Aes.AesVec.eq expanded[9] (← AesBlock.from_u128 0x40beeb282f18a2596747d26b458c553e#128))
  assert (Aes.AesVec.eq expanded[10] (← AesBlock.from_u128 0xa7e1466c9411f1df821f750aad07d753#128))
  assert (Aes.AesVec.eq expanded[11] (← AesBlock.from_u128 0xca4005388fcc5006282d166abc3ce7b5#128))
  assert (Aes.AesVec.eq expanded[12] (← AesBlock.from_u128 0xe98ba06f448c773c8ecc720401002202#128))
  pure ()

/-- src/tests.rs:62-79 `expansion_of_256_bit_key`. -/
def expansion_of_256_bit_key : M Unit := do
  let expanded : Vector B 15 ← Aes.AesBlock.keygen_256 (← (AES_256_KEY : M (Vector U8 32)))
  assert (Aes.AesVec.eq expanded[0] (← AesBlock.from_u128 0x603deb1015ca71be2b73aef0857d7781#128))
  assert (Aes.AesVec.eq expanded[1] (← AesBlock.from_u128 0x1f352c073b6108d72d9810a30914dff4#128))
  assert (Aes.AesVec.eq expanded[2] (← AesBlock.from_u128 0x9ba354118e6925afa51a8b5f2067fcde#128))
  assert (Aes.AesVec.eq expanded[3] (← AesBlock.from_u128 0xa8b09c1a93d194cdbe49846eb75d5b9a#128))
  assert (Aes.AesVec.eq expanded[4] (← AesBlock.from_u128 0xd59aecb85bf3c917fee94248de8ebe96#128))
  assert (Aes.AesVec.eq expanded[5] (← AesBlock.from_u128 0xb5a9328a2678a647983122292f6c79b3#128))
  assert (Aes.AesVec.eq expanded[6] (← AesBlock.from_u128 0x812c81addadf48ba24360af2fab8b464#128))
  assert (Aes.AesVec.eq expanded[7] (← AesBlock.from_u128 0x98c5bfc9bebd198e268c3ba709e04214#128))
  assert (Aes.AesVec.eq expanded[8] (← AesBlock.from_u128 0x68007bacb2df331696e939e46c518d80#128))
  assert (Aes.AesVec.eq expanded[9] (← AesBlock.from_u128 0xc814e20476a9fb8a5025c02d59c58239#128))
  assert (Aes.AesVec.eq expanded[10] (← AesBlock.from_u128 0xde1369676ccc5a71fa2563959674ee15#128))
  assert (Aes.AesVec.eq expanded[11] (← AesBlock.from_u128 0x5886ca5d2e2f31d77e0af1fa27cf73c3#128))
  assert (Aes.AesVec.eq expanded[12] (← AesBlock.from_u128 0x749c47ab18501ddae2757e4f7401905a#128))
  assert (Aes.AesVec.eq expanded[13] (← AesBlock.from_u128 0xcafaaae3e4d59b349adf6acebd10190d#128))
  assert (Aes.AesVec.eq expanded[14] (← AesBlock.from_u128 0xfe4890d1e6188d0b046df344706c631e#128))
  pure ()

/-- src/tests.rs:140-161 `AES_128_VECTORS`. -/
def AES_128_VECTORS : M (Vector (B × B) 5) := do
  pure #v[((← AesBlock.from_u128 0x6bc1bee22e409f96e93d7e117393172a#128), (← AesBlock.from_u128 0x3ad77bb40d7a3660a89ecaf32466ef97#128)), ((← AesBlock.from_u128 0xae2d8a571e03ac9c9eb76fac45af8e51#128), (← AesBlock.from_u128 0xf5d3d58503b9699de785895a96fdbaaf#128)), ((← AesBlock.from_u128 0x30c81c46a35ce411e5fbc1191a0a52ef#128), (← AesBlock.from_u128 0x43b1cd7f598ece23881b00e3ed030688#128)), ((← AesBlock.from_u128 0xf69f2445df4f9b17ad2b417be66c3710#128), (← AesBlock.from_u128 0x7b0c785e27e8ad3f8223207104725dd4#128)), ((← AesBlock.from_u128 0x3243f6a8885a308d313198a2e0370734#128), (← AesBlock.from_u128 0x3925841d02dc09fbdc118597196a0b32#128))]

/-- src/tests.rs:162-179 `AES_192_VECTORS`. -/
def AES_192_VECTORS : M (Vector (B × B) 4) := do
  pure #v[((← AesBlock.from_u128 0x6bc1bee22e409f96e93d7e117393172a#128), (← AesBlock.from_u128 0xbd334f1d6e45f25ff712a214571fa5cc#128)), ((← AesBlock.from_u128 0xae2d8a571e03ac9c9eb76fac45af8e51#128), (← AesBlock.from_u128 0x974104846d0ad3ad7734ecb3ecee4eef#128)), ((← AesBlock.from_u128 0x30c81c46a35ce411e5fbc1191a0a52ef#128), (← AesBlock.from_u128 0xef7afd2270e2e60adce0ba2face6444e#128)), ((← AesBlock.from_u128 0xf69f2445df4f9b17ad2b417be66c3710#128), (← AesBlock.from_u128 0x9a4b41ba738d6c72fb16691603c18e0e#128))]

/-- src/tests.rs:180-197 `AES_256_VECTORS`. -/
def AES_256_VECTORS : M (Vector (B × B) 4) := do
  pure #v[((← AesBlock.from_u128 0x6bc1bee22e409f96e93d7e117393172a#128), (← AesBlock.from_u128 0xf3eed1bdb5d2a03c064b5a7e3db181f8#128)), ((← AesBlock.from_u128 0xae2d8a571e03ac9c9eb76fac45af8e51#128), (← AesBlock.from_u128 0x591ccb10d410ed26dc5ba74a31362870#128)), ((← AesBlock.from_u128 0x30c81c46a35ce411e5fbc1191a0a52ef#128), (← AesBlock.from_u128 0xb6ed21b99ca6f4f9f153e7b1beafed1d#128)), ((← AesBlock.from_u128 0xf69f2445df4f9b17ad2b417be66c3710#128), (← AesBlock.from_u128 0x23304b7a39f9f3ff067d8d8f9e24ecc7#128))]

/-- src/tests.rs:201-217 `aes_128_test`. -/
def aes_128_test : M Unit := do
  let enc : Aes.AesEnc B 10 ← Aes128Enc.from (← (AES_128_KEY : M (Vector U8 16)))
  assert (Aes.AesVec.eq (← Aes128Enc.encrypt_block enc (((← (AES_128_VECTORS : M (Vector (B × B) 5)))[0]).1)) (((← (AES_128_VECTORS : M (Vector (B × B) 5)))[0]).2))
  assert (Aes.AesVec.eq (← Aes128Enc.encrypt_block enc (((← (AES_128_VECTORS : M (Vector (B × B) 5)))[1]).1)) (((← (AES_128_VECTORS : M (Vector (B × B) 5)))[1]).2))
  assert (Aes.AesVec.eq (← Aes128Enc.encrypt_2_blocks enc (Aes.AesBlockX2.from_pair ((((← (AES_128_VECTORS : M (Vector (B × B) 5)))[0]).1), (((← (AES_128_VECTORS : M (Vector (B × B) 5)))[1]).1)) : X2)) (Aes.AesBlockX2.from_pair ((((← (AES_128_VECTORS : M (Vector (B × B) 5)))[0]).2), (((← (AES_128_VECTORS : M (Vector (B × B) 5)))[1]).2)) : X2))
  assert (Aes.AesVec.eq (← Aes128Enc.encrypt_block enc (((← (AES_128_VECTORS : M (Vector (B × B) 5)))[2]).1)) (((← (AES_128_VECTORS : M (Vector (B × B) 5)))[2]).2))
  assert (Aes.AesVec.eq (← Aes128Enc.encrypt_block enc (((← (AES_128_VECTORS : M (Vector (B × B) 5)))[3]).1)) (((← (AES_128_VECTORS : M (Vector (B × B) 5)))[3]).2))
  assert (Aes.AesVec.eq (← Aes128Enc.encrypt_2_blocks enc (Aes.AesBlockX2.from_pair ((((← (AES_128_VECTORS : M (Vector (B × B) 5)))[2]).1), (((← (AES_128_VECTORS : M (Vector (B × B) 5)))[3]).1)) : X2)) (Aes.AesBlockX2.from_pair ((((← (AES_128_VECTORS : M (Vector (B × B) 5)))[2]).2), (((← (AES_128_VECTORS : M (Vector (B × B) 5)))[3]).2)) : X2))
  assert (Aes.AesVec.eq (← Aes128Enc.encrypt_4_blocks enc (Aes.AesBlockX4.from_quad ((((← (AES_128_VECTORS : M (Vector (B × B) 5)))[0]).1), (((← (AES_128_VECTORS : M (Vector (B × B) 5)))[1]).1), (((← (AES_128_VECTORS : M (Vector (B × B) 5)))[2]).1), (((← (AES_128_VECTORS : M (Vector (B × B) 5)))[3]).1)) : X4)) (Aes.AesBlockX4.from_quad ((((← (AES_128_VECTORS : M (Vector (B × B) 5)))[0]).2), (((← (AES_128_VECTORS : M (Vector (B × B) 5)))[1]).2), (((← (AES_128_VECTORS : M (Vector (B × B) 5)))[2]).2), (((← (AES_128_VECTORS : M (Vector (B × B) 5)))[3]).2)) : X4))
  assert (Aes.AesVec.eq (← Aes128Enc.encrypt_block enc (((← (AES_128_VECTORS : M (Vector (B × B) 5)))[4]).1)) (((← (AES_128_VECTORS : M (Vector (B × B) 5)))[4]).2))
  let dec : Aes.AesDec B 10 ← Aes128Enc.decrypter enc
  assert (Aes.AesVec.eq (← Aes128Dec.decrypt_block dec (((← (AES_128_VECTORS : M (Vector (B × B) 5)))[0]).2)) (((← (AES_128_VECTORS : M (Vector (B × B) 5)))[0]).1))
  assert (Aes.AesVec.eq (← Aes128Dec.decrypt_block dec (((← (AES_128_VECTORS : M (Vector (B × B) 5)))[1]).2)) (((← (AES_128_VECTORS : M (Vector (B × B) 5)))[1]).1))
  assert (Aes.AesVec.eq (← Aes128Dec.decrypt_2_blocks dec (Aes.AesBlockX2.from_pair ((((← (AES_128_VECTORS : M (Vector (B × B) 5)))[0]).2), (((← (AES_128_VECTORS : M (Vector (B × B) 5)))[1]).2)) : X2)) (Aes.AesBlockX2.from_pair ((((← (AES_128_VECTORS : M (Vector (B × B) 5)))[0]).1), (((← (AES_128_VECTORS : M (Vector (B × B) 5)))[1]).1)) : X2))
  assert (Aes.AesVec.eq (← Aes128Dec.decrypt_block dec (((← (AES_128_VECTORS : M (Vector (B × B) 5)))[2]).2)) (((← (AES_128_VECTORS : M (Vector (B × B) 5)))[2]).1))
  assert (Aes.AesVec.eq (← Aes128Dec.decrypt_block dec (((← (AES_128_VECTORS : M (Vector (B × B) 5)))[3]).2)) (((← (AES_128_VECTORS : M (Vector (B × B) 5)))[3]).1))
  assert (Aes.AesVec.eq (← Aes128Dec.decrypt_2_blocks dec (Aes.AesBlockX2.from_pair ((((← (AES_128_VECTORS : M (Vector (B × B) 5)))[2]).2), (((← (AES_128_VECTORS : M (Vector (B × B) 5)))[3]).2)) : X2)) (Aes.AesBlockX2.from_pair ((((← (AES_128_VECTORS : M (Vector (B × B) 5)))[2]).1), (((← (AES_128_VECTORS : M (Vector (B × B) 5)))[3]).1)) : X2))
  assert (Aes.AesVec.eq (← Aes128Dec.decrypt_4_blocks dec (Aes.AesBlockX4.from_quad ((((← (AES_128_VECTORS : M (Vector (B × B) 5)))[0]).2), (((← (AES_128_VECTORS : M (Vector (B × B) 5)))[1]).2), (((← (AES_128_VECTORS : M (Vector (B × B) 5)))[2]).2), (((← (AES_128_VECTORS : M (Vector (B × B) 5)))[3]).2)) : X4)) (Aes.AesBlockX4.from_quad ((((← (AES_128_VECTORS : M (Vector (B × B) 5)))[0]).1), (((← (AES_128_VECTORS : M (Vector (B × B) 5)))[1]).1), (((← (AES_128_VECTORS : M (Vector (B × B) 5)))[2]).1), (((← (AES_128_VECTORS : M (Vector (B × B) 5)))[3]).1)) : X4))
  assert (Aes.AesVec.eq (← Aes128Dec.decrypt_block dec (((← (AES_128_VECTORS : M (Vector (B × B) 5)))[4]).2)) (((← (AES_128_VECTORS : M (Vector (B × B) 5)))[4]).1))
  pure ()

/-- src/tests.rs:220-228 `aes_192_test`. -/
def aes_192_test : M Unit := do
  let enc : Aes.AesEnc B 12 ← Aes192Enc.from (← (AES_192_KEY : M (Vector U8 24)))
  assert (Aes.AesVec.eq (← Aes192Enc.encrypt_block enc (((← (AES_192_VECTORS : M (Vector (B × B) 4)))[0]).1)) (((← (AES_192_VECTORS : M (Vector (B × B) 4)))[0]).2))
  assert (Aes.AesVec.eq (← Aes192Enc.encrypt_block enc (((← (AES_192_VECTORS : M (Vector (B × B) 4)))[1]).1)) (((← (AES_192_VECTORS : M (Vector (B × B) 4)))[1]).2))
  assert (Aes.AesVec.eq (← Aes192Enc.encrypt_2_blocks enc (Aes.AesBlockX2.from_pair ((((← (AES_192_VECTORS : M (Vector (B × B) 4)))[0]).1), (((← (AES_192_VECTORS : M (Vector (B × B) 4)))[1]).1)) : X2)) (Aes.AesBlockX2.from_pair ((((← (AES_192_VECTORS : M (Vector (B × B) 4)))[0]).2), (((← (AES_192_VECTORS : M (Vector (B × B) 4)))[1]).2)) : X2))
  assert (Aes.AesVec.eq (← Aes192Enc.encrypt_block enc (((← (AES_192_VECTORS : M (Vector (B × B) 4)))[2]).1)) (((← (AES_192_VECTORS : M (Vector (B × B) 4)))[2]).2))
  assert (Aes.AesVec.eq (← Aes192Enc.encrypt_block enc (((← (AES_192_VECTORS : M (Vector (B × B) 4)))[3]).1)) (((← (AES_192_VECTORS : M (Vector (B × B) 4)))[3]).2))
  assert (Aes.AesVec.eq (← Aes192Enc.encrypt_2_blocks enc (Aes.AesBlockX2.from_pair ((((← (AES_192_VECTORS : M (Vector (B × B) 4)))[2]).1), (((← (AES_192_VECTORS : M (Vector (B × B) 4)))[3]).1)) : X2)) (Aes.AesBlockX2.from_pair ((((← (AES_192_VECTORS : M (Vector (B × B) 4)))[2]).2), (((← (AES_192_VECTORS : M (Vector (B × B) 4)))[3]).2)) : X2))
  assert (Aes.AesVec.eq (← Aes192Enc.encrypt_4_blocks enc (Aes.AesBlockX4.from_quad ((((← (AES_192_VECTORS : M (Vector (B × B) 4)))[0]).1), (((← (AES_192_VECTORS : M (Vector (B × B) 4)))[1]).1), (((← (AES_192_VECTORS : M (Vector (B × B) 4)))[2]).1), (((← (AES_192_VECTORS : M (Vector (B × B) 4)))[3]).1)) : X4)) (Aes.AesBlockX4.from_quad ((((← (AES_192_VECTORS : M (Vector (B × B) 4)))[0]).2), (((← (AES_192_VECTORS : M (Vector (B × B) 4)))[1]).2), (((← (AES_192_VECTORS : M (Vector (B × B) 4)))[2]).2), (((← (AES_192_VECTORS : M (Vector (B × B) 4)))[3]).2)) : X4))
  let dec : Aes.AesDec B 12 ← Aes192Enc.decrypter enc
  assert (Aes.AesVec.eq (← Aes192Dec.decrypt_block dec (((← (AES_192_VECTORS : M (Vector (B × B) 4)))[0]).2)) (((← (AES_192_VECTORS : M (Vector (B × B) 4)))[0]).1))
  assert (Aes.AesVec.eq (← Aes192Dec.decrypt_block dec (((← (AES_192_VECTORS : M (Vector (B × B) 4)))[1]).2)) (((← (AES_192_VECTORS : M (Vector (B × B) 4)))[1]).1))
  assert (Aes.AesVec.eq (← Aes192Dec.decrypt_2_blocks dec (Aes.AesBlockX2.from_pair ((((← (AES_192_VECTORS : M (Vector (B × B) 4)))[0]).2), (((← (AES_192_VECTORS : M (Vector (B × B) 4)))[1]).2)) : X2)) (Aes.AesBlockX2.from_pair ((((← (AES_192_VECTORS : M (Vector (B × B) 4)))[0]).1), (((← (AES_192_VECTORS : M (Vector (B × B) 4)))[1]).1)) : X2))
  assert (Aes.AesVec.eq (← Aes192Dec.decrypt_block dec (((← (AES_192_VECTORS : M (Vector (B × B) 4)))[2]).2)) (((← (AES_192_VECTORS : M (Vector (B × B) 4)))[2]).1))
  assert (Aes.AesVec.eq (← Aes192Dec.decrypt_block dec (((← (AES_192_VECTORS : M (Vector (B × B) 4)))[3]).2)) (((← (AES_192_VECTORS : M (Vector (B × B) 4)))[3]).1))
  assert (Aes.AesVec.eq (← Aes192Dec.decrypt_2_blocks dec (Aes.AesBlockX2.from_pair ((((← (AES_192_VECTORS : M (Vector (B × B) 4)))[2]).2), (((← (AES_192_VECTORS : M (Vector (B × B) 4)))[3]).2)) : X2)) (Aes.AesBlockX2.from_pair ((((← (AES_192_VECTORS : M (Vector (B × B) 4)))[2]).1), (((← (AES_192_VECTORS : M (Vector (B × B) 4)))[3]).1)) : X2))
  assert (Aes.AesVec.eq (← Aes192Dec.decrypt_4_blocks dec (Aes.AesBlockX4.from_quad ((((← (AES_192_VECTORS : M (Vector (B × B) 4)))[0]).2), (((← (AES_192_VECTORS : M (Vector (B × B) 4)))[1]).2), (((← (AES_192_VECTORS : M (Vector (B × B) 4)))[2]).2), (((← (AES_192_VECTORS : M (Vector (B × B) 4)))[3]).2)) : X4)) (Aes.AesBlockX4.from_quad ((((← (AES_192_VECTORS : M (Vector (B × B) 4)))[0]).1), (((← (AES_192_VECTORS : M (Vector (B × B) 4)))[1]).1), (((← (AES_192_VECTORS : M (Vector (B × B) 4)))[2]).1), (((← (AES_192_VECTORS : M (Vector (B × B) 4)))[3]).1)) : X4))
  pure ()

/-- src/tests.rs:231-239 `aes_256_test`. -/
def aes_256_test : M Unit := do
  let enc : Aes.AesEnc B 14 ← Aes256Enc.from (← (AES_256_KEY : M (Vector U8 32)))
  assert (Aes.AesVec.eq (← Aes256Enc.encrypt_block enc (((← (AES_256_VECTORS : M (Vector (B × B) 4)))[0]).1)) (((← (AES_256_VECTORS : M (Vector (B × B) 4)))[0]).2))
  assert (Aes.AesVec.eq (← Aes256Enc.encrypt_block enc (((← (AES_256_VECTORS : M (Vector (B × B) 4)))[1]).1)) (((← (AES_256_VECTORS : M (Vector (B × B) 4)))[1]).2))
  assert (Aes.AesVec.eq (← Aes256Enc.encrypt_2_blocks enc (Aes.AesBlockX2.from_pair ((((← (AES_256_VECTORS : M (Vector (B × B) 4)))[0]).1), (((← (AES_256_VECTORS : M (Vector (B × B) 4)))[1]).1)) : X2)) (Aes.AesBlockX2.from_pair ((((← (AES_256_VECTORS : M (Vector (B × B) 4)))[0]).2), (((← (AES_256_VECTORS : M (Vector (B × B) 4)))[1]).2)) : X2))
  assert (Aes.AesVec.eq (← Aes256Enc.encrypt_block enc (((← (AES_256_VECTORS : M (Vector (B × B) 4)))[2]).1)) (((← (AES_256_VECTORS : M (Vector (B × B) 4)))[2]).2))
  assert (Aes.AesVec.eq (← Aes256Enc.encrypt_block enc (((← (AES_256_VECTORS : M (Vector (B × B) 4)))[3]).1)) (((← (AES_256_VECTORS : M (Vector (B × B) 4)))[3]).2))
  assert (Aes.AesVec.eq (← Aes256Enc.encrypt_2_blocks enc (Aes.AesBlockX2.from_pair ((((← (AES_256_VECTORS : M (Vector (B × B) 4)))[2]).1), (((← (AES_256_VECTORS : M (Vector (B × B) 4)))[3]).1)) : X2)) (Aes.AesBlockX2.from_pair ((((← (AES_256_VECTORS : M (Vector (B × B) 4)))[2]).2), (((← (AES_256_VECTORS : M (Vector (B × B) 4)))[3]).2)) : X2))
  assert (Aes.AesVec.eq (← Aes256Enc.encrypt_4_blocks enc (Aes.AesBlockX4.from_quad ((((← (AES_256_VECTORS : M (Vector (B × B) 4)))[0]).1), (((← (AES_256_VECTORS : M (Vector (B × B) 4)))[1]).1), (((← (AES_256_VECTORS : M (Vector (B × B) 4)))[2]).1), (((← (AES_256_VECTORS : M (Vector (B × B) 4)))[3]).1)) : X4)) (Aes.AesBlockX4.from_quad ((((← (AES_256_VECTORS : M (Vector (B × B) 4)))[0]).2), (((← (AES_256_VECTORS : M (Vector (B × B) 4)))[1]).2), (((← (AES_256_VECTORS : M (Vector (B × B) 4)))[2]).2), (((← (AES_256_VECTORS : M (Vector (B × B) 4)))[3]).2)) : X4))
  let dec : Aes.AesDec B 14 ← Aes256Enc.decrypter enc
  assert (Aes.AesVec.eq (← Aes256Dec.decrypt_block dec (((← (AES_256_VECTORS : M (Vector (B × B) 4)))[0]).2)) (((← (AES_256_VECTORS : M (Vector (B × B) 4)))[0]).1))
  assert (Aes.AesVec.eq (← Aes256Dec.decrypt_block dec (((← (AES_256_VECTORS : M (Vector (B × B) 4)))[1]).2)) (((← (AES_256_VECTORS : M (Vector (B × B) 4)))[1]).1))
  assert (Aes.AesVec.eq (← Aes256Dec.decrypt_2_blocks dec (Aes.AesBlockX2.from_pair ((((← (AES_256_VECTORS : M (Vector (B × B) 4)))[0]).2), (((← (AES_256_VECTORS : M (Vector (B × B) 4)))[1]).2)) : X2)) (Aes.AesBlockX2.from_pair ((((← (AES_256_VECTORS : M (Vector (B × B) 4)))[0]).1), (((← (AES_256_VECTORS : M (Vector (B × B) 4)))[1]).1)) : X2))
  assert (Aes.AesVec.eq (← Aes256Dec.decrypt_block dec (((← (AES_256_VECTORS : M (Vector (B × B) 4)))[2]).2)) (((← (AES_256_VECTORS : M (Vector (B × B) 4)))[2]).1))
  assert (Aes.AesVec.eq (← Aes256Dec.decrypt_block dec (((← (AES_256_VECTORS : M (Vector (B × B) 4)))[3]).2)) (((← (AES_256_VECTORS : M (Vector (B × B) 4)))[3]).1))
  assert (Aes.AesVec.eq (← Aes256Dec.decrypt_2_blocks dec (Aes.AesBlockX2.from_pair ((((← (AES_256_VECTORS : M (Vector (B × B) 4)))[2]).2), (((← (AES_256_VECTORS : M (Vector (B × B) 4)))[3]).2)) : X2)) (Aes.AesBlockX2.from_pair ((((← (AES_256_VECTORS : M (Vector (B × B) 4)))[2]).1), (((← (AES_256_VECTORS : M (Vector (B × B) 4)))[3]).1)) : X2))
  assert (Aes.AesVec.eq (← Aes256Dec.decrypt_4_blocks dec (Aes.AesBlockX4.from_quad ((((← (AES_256_VECTORS : M (Vector (B × B) 4)))[0]).2), (((← (AES_256_VECTORS : M (Vector (B × B) 4)))[1]).2), (((← (AES_256_VECTORS : M (Vector (B × B) 4)))[2]).2), (((← (AES_256_VECTORS : M (Vector (B × B) 4)))[3]).2)) : X4)) (Aes.AesBlockX4.from_quad ((((← (AES_256_VECTORS : M (Vector (B × B) 4)))[0]).1), (((← (AES_256_VECTORS : M (Vector (B × B) 4)))[1]).1), (((← (AES_256_VECTORS : M (Vector (B × B) 4)))[2]).1), (((← (AES_256_VECTORS : M (Vector (B × B) 4)))[3]).1)) : X4))
  pure ()

/-- src/tests.rs:7-239 The functions marked `#[test]`. -/
def suite : List (M Unit) :=
  [aesenc_test (B := B), expansion_of_128_bit_key (B := B), expansion_of_192_bit_key (B := B), expansion_of_256_bit_key (B := B), aes_128_test (B := B) (X2 := X2) (X4 := X4), aes_192_test (B := B) (X2 := X2) (X4 := X4), aes_256_test (B := B) (X2 := X2) (X4 := X4)]

end RustSrc.Lib.Pre.Tests
