import Verif.Model.IsaX86
/-!
Cross-checks of the trusted instruction semantics of `Verif/Model/IsaX86.lean` against an x86-64 processor: written by
tools/isa/isa_x86.c, which runs each intrinsic the crate uses on pseudo-random registers. These are tests of the trusted base,
not proofs of properties. A register is printed as a number, byte 0 in the lowest eight bits.
-/
namespace Aes.IsaHardware
open Rust IsaX86

/-- A register of `n` bytes. -/
def reg (n x : Nat) : Vector U8 n := Vector.ofFn fun i => BitVec.ofNat 8 (x / 256 ^ i.val)

example : and (reg 16 0x1e209ea157f7dfa4adfb28fb547ddd74) (reg 16 0x52eb8738829eafc7f1ac104d6a08d4f6) = (reg 16 0x1220862002968f84a1a800494008d474) := by decide +kernel
example : or (reg 16 0x1e209ea157f7dfa4adfb28fb547ddd74) (reg 16 0x52eb8738829eafc7f1ac104d6a08d4f6) = (reg 16 0x5eeb9fb9d7ffffe7fdff38ff7e7dddf6) := by decide +kernel
example : xor (reg 16 0x1e209ea157f7dfa4adfb28fb547ddd74) (reg 16 0x52eb8738829eafc7f1ac104d6a08d4f6) = (reg 16 0x4ccb1999d56970635c5738b63e750982) := by decide +kernel
example : testz (reg 16 0x1e209ea157f7dfa4adfb28fb547ddd74) (reg 16 0x52eb8738829eafc7f1ac104d6a08d4f6) = 0 := by decide +kernel
example : aesenc (reg 16 0x1e209ea157f7dfa4adfb28fb547ddd74) (reg 16 0x52eb8738829eafc7f1ac104d6a08d4f6) = (reg 16 0x7ceb66509c9d7f228928da7d7fe8e48f) := by decide +kernel
example : aesenclast (reg 16 0x1e209ea157f7dfa4adfb28fb547ddd74) (reg 16 0x52eb8738829eafc7f1ac104d6a08d4f6) = (reg 16 0x09e4460a1761a48ed11b8e421860e064) := by decide +kernel
example : aesdec (reg 16 0x1e209ea157f7dfa4adfb28fb547ddd74) (reg 16 0x52eb8738829eafc7f1ac104d6a08d4f6) = (reg 16 0x133dcf67c51bfd5e113caba294a7bbe3) := by decide +kernel
example : aesdeclast (reg 16 0x1e209ea157f7dfa4adfb28fb547ddd74) (reg 16 0x52eb8738829eafc7f1ac104d6a08d4f6) = (reg 16 0xaf8868c96b8d41da2bf8d92e722e0b3c) := by decide +kernel
example : aesimc (reg 16 0x1e209ea157f7dfa4adfb28fb547ddd74) = (reg 16 0x4467c6e4e5a2c05ce2967687eae778f5) := by decide +kernel
example : aeskeygenassist 0x00#8 (reg 16 0x1e209ea157f7dfa4adfb28fb547ddd74) = (reg 16 0x3272b70b72b70b320f950f34950f340f) := by decide +kernel
example : aeskeygenassist 0x01#8 (reg 16 0x1e209ea157f7dfa4adfb28fb547ddd74) = (reg 16 0x3272b70a72b70b320f950f35950f340f) := by decide +kernel
example : aeskeygenassist 0x36#8 (reg 16 0x1e209ea157f7dfa4adfb28fb547ddd74) = (reg 16 0x3272b73d72b70b320f950f02950f340f) := by decide +kernel
example : bslli 4 (reg 16 0x1e209ea157f7dfa4adfb28fb547ddd74) = (reg 16 0x57f7dfa4adfb28fb547ddd7400000000) := by decide +kernel
example : bslli 8 (reg 16 0x1e209ea157f7dfa4adfb28fb547ddd74) = (reg 16 0xadfb28fb547ddd740000000000000000) := by decide +kernel
example : shuffle_epi32 0xff#8 (reg 16 0x1e209ea157f7dfa4adfb28fb547ddd74) = (reg 16 0x1e209ea11e209ea11e209ea11e209ea1) := by decide +kernel
example : shuffle_epi32 0x55#8 (reg 16 0x1e209ea157f7dfa4adfb28fb547ddd74) = (reg 16 0xadfb28fbadfb28fbadfb28fbadfb28fb) := by decide +kernel
example : shuffle_epi32 0xaa#8 (reg 16 0x1e209ea157f7dfa4adfb28fb547ddd74) = (reg 16 0x57f7dfa457f7dfa457f7dfa457f7dfa4) := by decide +kernel
example : unpacklo_epi64 (reg 16 0x1e209ea157f7dfa4adfb28fb547ddd74) (reg 16 0x52eb8738829eafc7f1ac104d6a08d4f6) = (reg 16 0xf1ac104d6a08d4f6adfb28fb547ddd74) := by decide +kernel
example : alignr_epi8 8 (reg 16 0x1e209ea157f7dfa4adfb28fb547ddd74) (reg 16 0x52eb8738829eafc7f1ac104d6a08d4f6) = (reg 16 0xadfb28fb547ddd7452eb8738829eafc7) := by decide +kernel
example : and (reg 32 0xcbe5b06a832746143b6aec3c2baa26ca1e209ea157f7dfa4adfb28fb547ddd74) (reg 32 0x7d9959ca038e58837e2628cb2a686e9452eb8738829eafc7f1ac104d6a08d4f6) = (reg 32 0x4981104a030640003a2228082a2826801220862002968f84a1a800494008d474) := by decide +kernel
example : or (reg 32 0xcbe5b06a832746143b6aec3c2baa26ca1e209ea157f7dfa4adfb28fb547ddd74) (reg 32 0x7d9959ca038e58837e2628cb2a686e9452eb8738829eafc7f1ac104d6a08d4f6) = (reg 32 0xfffdf9ea83af5e977f6eecff2bea6ede5eeb9fb9d7ffffe7fdff38ff7e7dddf6) := by decide +kernel
example : xor (reg 32 0xcbe5b06a832746143b6aec3c2baa26ca1e209ea157f7dfa4adfb28fb547ddd74) (reg 32 0x7d9959ca038e58837e2628cb2a686e9452eb8738829eafc7f1ac104d6a08d4f6) = (reg 32 0xb67ce9a080a91e97454cc4f701c2485e4ccb1999d56970635c5738b63e750982) := by decide +kernel
example : testz (reg 32 0xcbe5b06a832746143b6aec3c2baa26ca1e209ea157f7dfa4adfb28fb547ddd74) (reg 32 0x7d9959ca038e58837e2628cb2a686e9452eb8738829eafc7f1ac104d6a08d4f6) = 0 := by decide +kernel
example : lanewise2 aesenc (reg 32 0xcbe5b06a832746143b6aec3c2baa26ca1e209ea157f7dfa4adfb28fb547ddd74) (reg 32 0x7d9959ca038e58837e2628cb2a686e9452eb8738829eafc7f1ac104d6a08d4f6) = (reg 32 0x4d47442282ed7a102236f6c08a70cde67ceb66509c9d7f228928da7d7fe8e48f) := by decide +kernel
example : lanewise2 aesenclast (reg 32 0xcbe5b06a832746143b6aec3c2baa26ca1e209ea157f7dfa4adfb28fb547ddd74) (reg 32 0x7d9959ca038e58837e2628cb2a686e9452eb8738829eafc7f1ac104d6a08d4f6) = (reg 32 0x919baec8e122bf798fff722035a4a0e009e4460a1761a48ed11b8e421860e064) := by decide +kernel
example : lanewise2 aesdec (reg 32 0xcbe5b06a832746143b6aec3c2baa26ca1e209ea157f7dfa4adfb28fb547ddd74) (reg 32 0x7d9959ca038e58837e2628cb2a686e9452eb8738829eafc7f1ac104d6a08d4f6) = (reg 32 0xcd00476ea07367c1e2cb9c2b073dddc7133dcf67c51bfd5e113caba294a7bbe3) := by decide +kernel
example : lanewise2 aesdeclast (reg 32 0xcbe5b06a832746143b6aec3c2baa26ca1e209ea157f7dfa4adfb28fb547ddd74) (reg 32 0x7d9959ca038e58837e2628cb2a686e9452eb8738829eafc7f1ac104d6a08d4f6) = (reg 32 0x76c1c1925aecdb183f0c0ba663559284af8868c96b8d41da2bf8d92e722e0b3c) := by decide +kernel
example : setr_m128i (reg 16 0x1e209ea157f7dfa4adfb28fb547ddd74) (reg 16 0x52eb8738829eafc7f1ac104d6a08d4f6) = (reg 32 0x52eb8738829eafc7f1ac104d6a08d4f61e209ea157f7dfa4adfb28fb547ddd74) := by decide +kernel
example : broadcastsi128_si256 (reg 16 0x1e209ea157f7dfa4adfb28fb547ddd74) = (reg 32 0x1e209ea157f7dfa4adfb28fb547ddd741e209ea157f7dfa4adfb28fb547ddd74) := by decide +kernel
example : extracti128_si256 0 (reg 32 0xcbe5b06a832746143b6aec3c2baa26ca1e209ea157f7dfa4adfb28fb547ddd74) = (reg 16 0x1e209ea157f7dfa4adfb28fb547ddd74) := by decide +kernel
example : extracti128_si256 1 (reg 32 0xcbe5b06a832746143b6aec3c2baa26ca1e209ea157f7dfa4adfb28fb547ddd74) = (reg 16 0xcbe5b06a832746143b6aec3c2baa26ca) := by decide +kernel
example : inserti128_si256_1 (reg 32 0xcbe5b06a832746143b6aec3c2baa26ca1e209ea157f7dfa4adfb28fb547ddd74) (reg 16 0x52eb8738829eafc7f1ac104d6a08d4f6) = (reg 32 0x52eb8738829eafc7f1ac104d6a08d4f61e209ea157f7dfa4adfb28fb547ddd74) := by decide +kernel
example : and (reg 64 0x30c13c4cf442e2cd3787ba9a4e816b5ac8151380b9b3d988cb01f1f22f400f31cbe5b06a832746143b6aec3c2baa26ca1e209ea157f7dfa4adfb28fb547ddd74) (reg 64 0xae0d8b3f2af4ed764fec6cc554de451f31a72f7973583189697905840c256fb27d9959ca038e58837e2628cb2a686e9452eb8738829eafc7f1ac104d6a08d4f6) = (reg 64 0x2001080c2040e044078428804480411a0005030031101188490101800c000f304981104a030640003a2228082a2826801220862002968f84a1a800494008d474) := by decide +kernel
example : or (reg 64 0x30c13c4cf442e2cd3787ba9a4e816b5ac8151380b9b3d988cb01f1f22f400f31cbe5b06a832746143b6aec3c2baa26ca1e209ea157f7dfa4adfb28fb547ddd74) (reg 64 0xae0d8b3f2af4ed764fec6cc554de451f31a72f7973583189697905840c256fb27d9959ca038e58837e2628cb2a686e9452eb8738829eafc7f1ac104d6a08d4f6) = (reg 64 0xbecdbf7ffef6efff7feffedf5edf6f5ff9b73ff9fbfbf989eb79f5f62f656fb3fffdf9ea83af5e977f6eecff2bea6ede5eeb9fb9d7ffffe7fdff38ff7e7dddf6) := by decide +kernel
example : xor (reg 64 0x30c13c4cf442e2cd3787ba9a4e816b5ac8151380b9b3d988cb01f1f22f400f31cbe5b06a832746143b6aec3c2baa26ca1e209ea157f7dfa4adfb28fb547ddd74) (reg 64 0xae0d8b3f2af4ed764fec6cc554de451f31a72f7973583189697905840c256fb27d9959ca038e58837e2628cb2a686e9452eb8738829eafc7f1ac104d6a08d4f6) = (reg 64 0x9eccb773deb60fbb786bd65f1a5f2e45f9b23cf9caebe801a278f47623656083b67ce9a080a91e97454cc4f701c2485e4ccb1999d56970635c5738b63e750982) := by decide +kernel
example : lanewise4 aesenc (reg 64 0x30c13c4cf442e2cd3787ba9a4e816b5ac8151380b9b3d988cb01f1f22f400f31cbe5b06a832746143b6aec3c2baa26ca1e209ea157f7dfa4adfb28fb547ddd74) (reg 64 0xae0d8b3f2af4ed764fec6cc554de451f31a72f7973583189697905840c256fb27d9959ca038e58837e2628cb2a686e9452eb8738829eafc7f1ac104d6a08d4f6) = (reg 64 0xd8afda443e0f13a7224d584a5dc07857db1edc486ed20b8baf48189e59baae5a4d47442282ed7a102236f6c08a70cde67ceb66509c9d7f228928da7d7fe8e48f) := by decide +kernel
example : lanewise4 aesenclast (reg 64 0x30c13c4cf442e2cd3787ba9a4e816b5ac8151380b9b3d988cb01f1f22f400f31cbe5b06a832746143b6aec3c2baa26ca1e209ea157f7dfa4adfb28fb547ddd74) (reg 64 0xae0d8b3f2af4ed764fec6cc554de451f31a72f7973583189697905840c256fb27d9959ca038e58837e2628cb2a686e9452eb8738829eafc7f1ac104d6a08d4f6) = (reg 64 0x111af416b0f806cb6094f47d50f2b1a167db59b46c514c4d7c20300de448ce75919baec8e122bf798fff722035a4a0e009e4460a1761a48ed11b8e421860e064) := by decide +kernel
example : lanewise4 aesdec (reg 64 0x30c13c4cf442e2cd3787ba9a4e816b5ac8151380b9b3d988cb01f1f22f400f31cbe5b06a832746143b6aec3c2baa26ca1e209ea157f7dfa4adfb28fb547ddd74) (reg 64 0xae0d8b3f2af4ed764fec6cc554de451f31a72f7973583189697905840c256fb27d9959ca038e58837e2628cb2a686e9452eb8738829eafc7f1ac104d6a08d4f6) = (reg 64 0x2644fab56f43c979f5b1c3d87e6c6ec339d8a71e7aa45c6ec45a9e9ac3fc1c69cd00476ea07367c1e2cb9c2b073dddc7133dcf67c51bfd5e113caba294a7bbe3) := by decide +kernel
example : lanewise4 aesdeclast (reg 64 0x30c13c4cf442e2cd3787ba9a4e816b5ac8151380b9b3d988cb01f1f22f400f31cbe5b06a832746143b6aec3c2baa26ca1e209ea157f7dfa4adfb28fb547ddd74) (reg 64 0xae0d8b3f2af4ed764fec6cc554de451f31a72f7973583189697905840c256fb27d9959ca038e58837e2628cb2a686e9452eb8738829eafc7f1ac104d6a08d4f6) = (reg 64 0x18e7b06222652df6f53169f2e62828597faeca43c22a1a1eb256fe80556eed9c76c1c1925aecdb183f0c0ba663559284af8868c96b8d41da2bf8d92e722e0b3c) := by decide +kernel
example : inserti64x4_1 (reg 64 0x30c13c4cf442e2cd3787ba9a4e816b5ac8151380b9b3d988cb01f1f22f400f31cbe5b06a832746143b6aec3c2baa26ca1e209ea157f7dfa4adfb28fb547ddd74) (reg 32 0x7d9959ca038e58837e2628cb2a686e9452eb8738829eafc7f1ac104d6a08d4f6) = (reg 64 0x7d9959ca038e58837e2628cb2a686e9452eb8738829eafc7f1ac104d6a08d4f6cbe5b06a832746143b6aec3c2baa26ca1e209ea157f7dfa4adfb28fb547ddd74) := by decide +kernel
example : broadcast_i32x4 (reg 16 0x1e209ea157f7dfa4adfb28fb547ddd74) = (reg 64 0x1e209ea157f7dfa4adfb28fb547ddd741e209ea157f7dfa4adfb28fb547ddd741e209ea157f7dfa4adfb28fb547ddd741e209ea157f7dfa4adfb28fb547ddd74) := by decide +kernel
example : broadcast_i64x4 (reg 32 0xcbe5b06a832746143b6aec3c2baa26ca1e209ea157f7dfa4adfb28fb547ddd74) = (reg 64 0xcbe5b06a832746143b6aec3c2baa26ca1e209ea157f7dfa4adfb28fb547ddd74cbe5b06a832746143b6aec3c2baa26ca1e209ea157f7dfa4adfb28fb547ddd74) := by decide +kernel
example : extracti32x4_epi32 0 (reg 64 0x30c13c4cf442e2cd3787ba9a4e816b5ac8151380b9b3d988cb01f1f22f400f31cbe5b06a832746143b6aec3c2baa26ca1e209ea157f7dfa4adfb28fb547ddd74) = (reg 16 0x1e209ea157f7dfa4adfb28fb547ddd74) := by decide +kernel
example : extracti32x4_epi32 1 (reg 64 0x30c13c4cf442e2cd3787ba9a4e816b5ac8151380b9b3d988cb01f1f22f400f31cbe5b06a832746143b6aec3c2baa26ca1e209ea157f7dfa4adfb28fb547ddd74) = (reg 16 0xcbe5b06a832746143b6aec3c2baa26ca) := by decide +kernel
example : extracti32x4_epi32 2 (reg 64 0x30c13c4cf442e2cd3787ba9a4e816b5ac8151380b9b3d988cb01f1f22f400f31cbe5b06a832746143b6aec3c2baa26ca1e209ea157f7dfa4adfb28fb547ddd74) = (reg 16 0xc8151380b9b3d988cb01f1f22f400f31) := by decide +kernel
example : extracti32x4_epi32 3 (reg 64 0x30c13c4cf442e2cd3787ba9a4e816b5ac8151380b9b3d988cb01f1f22f400f31cbe5b06a832746143b6aec3c2baa26ca1e209ea157f7dfa4adfb28fb547ddd74) = (reg 16 0x30c13c4cf442e2cd3787ba9a4e816b5a) := by decide +kernel
example : extracti64x4_epi64 0 (reg 64 0x30c13c4cf442e2cd3787ba9a4e816b5ac8151380b9b3d988cb01f1f22f400f31cbe5b06a832746143b6aec3c2baa26ca1e209ea157f7dfa4adfb28fb547ddd74) = (reg 32 0xcbe5b06a832746143b6aec3c2baa26ca1e209ea157f7dfa4adfb28fb547ddd74) := by decide +kernel
example : extracti64x4_epi64 1 (reg 64 0x30c13c4cf442e2cd3787ba9a4e816b5ac8151380b9b3d988cb01f1f22f400f31cbe5b06a832746143b6aec3c2baa26ca1e209ea157f7dfa4adfb28fb547ddd74) = (reg 32 0x30c13c4cf442e2cd3787ba9a4e816b5ac8151380b9b3d988cb01f1f22f400f31) := by decide +kernel
example : cmpeq_epi64_mask (reg 64 0x30c13c4cf442e2cd3787ba9a4e816b5ac8151380b9b3d988cb01f1f22f400f31cbe5b06a832746143b6aec3c2baa26ca1e209ea157f7dfa4adfb28fb547ddd74) (reg 64 0xae0d8b3f2af4ed764fec6cc554de451f31a72f7973583189697905840c256fb27d9959ca038e58837e2628cb2a686e9452eb8738829eafc7f1ac104d6a08d4f6) = 0#8 := by decide +kernel
example : test_epi64_mask (reg 64 0x30c13c4cf442e2cd3787ba9a4e816b5ac8151380b9b3d988cb01f1f22f400f31cbe5b06a832746143b6aec3c2baa26ca1e209ea157f7dfa4adfb28fb547ddd74) (reg 64 0xae0d8b3f2af4ed764fec6cc554de451f31a72f7973583189697905840c256fb27d9959ca038e58837e2628cb2a686e9452eb8738829eafc7f1ac104d6a08d4f6) = 255#8 := by decide +kernel

example : and (reg 16 0xef1066fa344f2c732f2273d83d2e1a14) (reg 16 0xef1066fa344f2c73d0dd8c27c2d1e5eb) = (reg 16 0xef1066fa344f2c730000000000000000) := by decide +kernel
example : or (reg 16 0xef1066fa344f2c732f2273d83d2e1a14) (reg 16 0xef1066fa344f2c73d0dd8c27c2d1e5eb) = (reg 16 0xef1066fa344f2c73ffffffffffffffff) := by decide +kernel
example : xor (reg 16 0xef1066fa344f2c732f2273d83d2e1a14) (reg 16 0xef1066fa344f2c73d0dd8c27c2d1e5eb) = (reg 16 0x0000000000000000ffffffffffffffff) := by decide +kernel
example : testz (reg 16 0xef1066fa344f2c732f2273d83d2e1a14) (reg 16 0xef1066fa344f2c73d0dd8c27c2d1e5eb) = 0 := by decide +kernel
example : aesenc (reg 16 0xef1066fa344f2c732f2273d83d2e1a14) (reg 16 0xef1066fa344f2c73d0dd8c27c2d1e5eb) = (reg 16 0x998aa2d696ae8307862b6d9b79cd52d5) := by decide +kernel
example : aesenclast (reg 16 0xef1066fa344f2c732f2273d83d2e1a14) (reg 16 0xef1066fa344f2c73d0dd8c27c2d1e5eb) = (reg 16 0xf783c4d7217e1ffcf717fd461d556a11) := by decide +kernel
example : aesdec (reg 16 0xef1066fa344f2c732f2273d83d2e1a14) (reg 16 0xef1066fa344f2c73d0dd8c27c2d1e5eb) = (reg 16 0x7fbbad43c23d6b12b4a7f778279cae9c) := by decide +kernel
example : aesdeclast (reg 16 0xef1066fa344f2c732f2273d83d2e1a14) (reg 16 0xef1066fa344f2c73d0dd8c27c2d1e5eb) = (reg 16 0x648424ee558ca3fcf8a1cf0a8c433670) := by decide +kernel
example : aesimc (reg 16 0xef1066fa344f2c732f2273d83d2e1a14) = (reg 16 0x8126ce0ac5569522501c5bb106151b15) := by decide +kernel
example : bslli 4 (reg 16 0xef1066fa344f2c732f2273d83d2e1a14) = (reg 16 0x344f2c732f2273d83d2e1a1400000000) := by decide +kernel
example : bslli 8 (reg 16 0xef1066fa344f2c732f2273d83d2e1a14) = (reg 16 0x2f2273d83d2e1a140000000000000000) := by decide +kernel
example : shuffle_epi32 0xff#8 (reg 16 0xef1066fa344f2c732f2273d83d2e1a14) = (reg 16 0xef1066faef1066faef1066faef1066fa) := by decide +kernel
example : shuffle_epi32 0x55#8 (reg 16 0xef1066fa344f2c732f2273d83d2e1a14) = (reg 16 0x2f2273d82f2273d82f2273d82f2273d8) := by decide +kernel
example : shuffle_epi32 0xaa#8 (reg 16 0xef1066fa344f2c732f2273d83d2e1a14) = (reg 16 0x344f2c73344f2c73344f2c73344f2c73) := by decide +kernel
example : unpacklo_epi64 (reg 16 0xef1066fa344f2c732f2273d83d2e1a14) (reg 16 0xef1066fa344f2c73d0dd8c27c2d1e5eb) = (reg 16 0xd0dd8c27c2d1e5eb2f2273d83d2e1a14) := by decide +kernel
example : alignr_epi8 8 (reg 16 0xef1066fa344f2c732f2273d83d2e1a14) (reg 16 0xef1066fa344f2c73d0dd8c27c2d1e5eb) = (reg 16 0x2f2273d83d2e1a14ef1066fa344f2c73) := by decide +kernel
example : and (reg 32 0xd4023e67a2a6ad70a26626fd3e4f67afef1066fa344f2c732f2273d83d2e1a14) (reg 32 0xd4023e67a2a6ad705d99d902c1b09850ef1066fa344f2c73d0dd8c27c2d1e5eb) = (reg 32 0xd4023e67a2a6ad700000000000000000ef1066fa344f2c730000000000000000) := by decide +kernel
example : or (reg 32 0xd4023e67a2a6ad70a26626fd3e4f67afef1066fa344f2c732f2273d83d2e1a14) (reg 32 0xd4023e67a2a6ad705d99d902c1b09850ef1066fa344f2c73d0dd8c27c2d1e5eb) = (reg 32 0xd4023e67a2a6ad70ffffffffffffffffef1066fa344f2c73ffffffffffffffff) := by decide +kernel
example : xor (reg 32 0xd4023e67a2a6ad70a26626fd3e4f67afef1066fa344f2c732f2273d83d2e1a14) (reg 32 0xd4023e67a2a6ad705d99d902c1b09850ef1066fa344f2c73d0dd8c27c2d1e5eb) = (reg 32 0x0000000000000000ffffffffffffffff0000000000000000ffffffffffffffff) := by decide +kernel
example : testz (reg 32 0xd4023e67a2a6ad70a26626fd3e4f67afef1066fa344f2c732f2273d83d2e1a14) (reg 32 0xd4023e67a2a6ad705d99d902c1b09850ef1066fa344f2c73d0dd8c27c2d1e5eb) = 0 := by decide +kernel
example : setr_m128i (reg 16 0xef1066fa344f2c732f2273d83d2e1a14) (reg 16 0xef1066fa344f2c73d0dd8c27c2d1e5eb) = (reg 32 0xef1066fa344f2c73d0dd8c27c2d1e5ebef1066fa344f2c732f2273d83d2e1a14) := by decide +kernel
example : broadcastsi128_si256 (reg 16 0xef1066fa344f2c732f2273d83d2e1a14) = (reg 32 0xef1066fa344f2c732f2273d83d2e1a14ef1066fa344f2c732f2273d83d2e1a14) := by decide +kernel
example : extracti128_si256 0 (reg 32 0xd4023e67a2a6ad70a26626fd3e4f67afef1066fa344f2c732f2273d83d2e1a14) = (reg 16 0xef1066fa344f2c732f2273d83d2e1a14) := by decide +kernel
example : extracti128_si256 1 (reg 32 0xd4023e67a2a6ad70a26626fd3e4f67afef1066fa344f2c732f2273d83d2e1a14) = (reg 16 0xd4023e67a2a6ad70a26626fd3e4f67af) := by decide +kernel
example : inserti128_si256_1 (reg 32 0xd4023e67a2a6ad70a26626fd3e4f67afef1066fa344f2c732f2273d83d2e1a14) (reg 16 0xef1066fa344f2c73d0dd8c27c2d1e5eb) = (reg 32 0xef1066fa344f2c73d0dd8c27c2d1e5ebef1066fa344f2c732f2273d83d2e1a14) := by decide +kernel
example : and (reg 64 0x996d372bb64ca4f30a86c12d99d155041747b8830bf373590b0dd3d00fc6ae1cd4023e67a2a6ad70a26626fd3e4f67afef1066fa344f2c732f2273d83d2e1a14) (reg 64 0x996d372bb64ca4f3f5793ed2662eaafb1747b8830bf37359f4f22c2ff03951e3d4023e67a2a6ad705d99d902c1b09850ef1066fa344f2c73d0dd8c27c2d1e5eb) = (reg 64 0x996d372bb64ca4f300000000000000001747b8830bf373590000000000000000d4023e67a2a6ad700000000000000000ef1066fa344f2c730000000000000000) := by decide +kernel
example : or (reg 64 0x996d372bb64ca4f30a86c12d99d155041747b8830bf373590b0dd3d00fc6ae1cd4023e67a2a6ad70a26626fd3e4f67afef1066fa344f2c732f2273d83d2e1a14) (reg 64 0x996d372bb64ca4f3f5793ed2662eaafb1747b8830bf37359f4f22c2ff03951e3d4023e67a2a6ad705d99d902c1b09850ef1066fa344f2c73d0dd8c27c2d1e5eb) = (reg 64 0x996d372bb64ca4f3ffffffffffffffff1747b8830bf37359ffffffffffffffffd4023e67a2a6ad70ffffffffffffffffef1066fa344f2c73ffffffffffffffff) := by decide +kernel
example : xor (reg 64 0x996d372bb64ca4f30a86c12d99d155041747b8830bf373590b0dd3d00fc6ae1cd4023e67a2a6ad70a26626fd3e4f67afef1066fa344f2c732f2273d83d2e1a14) (reg 64 0x996d372bb64ca4f3f5793ed2662eaafb1747b8830bf37359f4f22c2ff03951e3d4023e67a2a6ad705d99d902c1b09850ef1066fa344f2c73d0dd8c27c2d1e5eb) = (reg 64 0x0000000000000000ffffffffffffffff0000000000000000ffffffffffffffff0000000000000000ffffffffffffffff0000000000000000ffffffffffffffff) := by decide +kernel
example : inserti64x4_1 (reg 64 0x996d372bb64ca4f30a86c12d99d155041747b8830bf373590b0dd3d00fc6ae1cd4023e67a2a6ad70a26626fd3e4f67afef1066fa344f2c732f2273d83d2e1a14) (reg 32 0xd4023e67a2a6ad705d99d902c1b09850ef1066fa344f2c73d0dd8c27c2d1e5eb) = (reg 64 0xd4023e67a2a6ad705d99d902c1b09850ef1066fa344f2c73d0dd8c27c2d1e5ebd4023e67a2a6ad70a26626fd3e4f67afef1066fa344f2c732f2273d83d2e1a14) := by decide +kernel
example : broadcast_i32x4 (reg 16 0xef1066fa344f2c732f2273d83d2e1a14) = (reg 64 0xef1066fa344f2c732f2273d83d2e1a14ef1066fa344f2c732f2273d83d2e1a14ef1066fa344f2c732f2273d83d2e1a14ef1066fa344f2c732f2273d83d2e1a14) := by decide +kernel
example : broadcast_i64x4 (reg 32 0xd4023e67a2a6ad70a26626fd3e4f67afef1066fa344f2c732f2273d83d2e1a14) = (reg 64 0xd4023e67a2a6ad70a26626fd3e4f67afef1066fa344f2c732f2273d83d2e1a14d4023e67a2a6ad70a26626fd3e4f67afef1066fa344f2c732f2273d83d2e1a14) := by decide +kernel
example : extracti32x4_epi32 0 (reg 64 0x996d372bb64ca4f30a86c12d99d155041747b8830bf373590b0dd3d00fc6ae1cd4023e67a2a6ad70a26626fd3e4f67afef1066fa344f2c732f2273d83d2e1a14) = (reg 16 0xef1066fa344f2c732f2273d83d2e1a14) := by decide +kernel
example : extracti32x4_epi32 1 (reg 64 0x996d372bb64ca4f30a86c12d99d155041747b8830bf373590b0dd3d00fc6ae1cd4023e67a2a6ad70a26626fd3e4f67afef1066fa344f2c732f2273d83d2e1a14) = (reg 16 0xd4023e67a2a6ad70a26626fd3e4f67af) := by decide +kernel
example : extracti32x4_epi32 2 (reg 64 0x996d372bb64ca4f30a86c12d99d155041747b8830bf373590b0dd3d00fc6ae1cd4023e67a2a6ad70a26626fd3e4f67afef1066fa344f2c732f2273d83d2e1a14) = (reg 16 0x1747b8830bf373590b0dd3d00fc6ae1c) := by decide +kernel
example : extracti32x4_epi32 3 (reg 64 0x996d372bb64ca4f30a86c12d99d155041747b8830bf373590b0dd3d00fc6ae1cd4023e67a2a6ad70a26626fd3e4f67afef1066fa344f2c732f2273d83d2e1a14) = (reg 16 0x996d372bb64ca4f30a86c12d99d15504) := by decide +kernel
example : extracti64x4_epi64 0 (reg 64 0x996d372bb64ca4f30a86c12d99d155041747b8830bf373590b0dd3d00fc6ae1cd4023e67a2a6ad70a26626fd3e4f67afef1066fa344f2c732f2273d83d2e1a14) = (reg 32 0xd4023e67a2a6ad70a26626fd3e4f67afef1066fa344f2c732f2273d83d2e1a14) := by decide +kernel
example : extracti64x4_epi64 1 (reg 64 0x996d372bb64ca4f30a86c12d99d155041747b8830bf373590b0dd3d00fc6ae1cd4023e67a2a6ad70a26626fd3e4f67afef1066fa344f2c732f2273d83d2e1a14) = (reg 32 0x996d372bb64ca4f30a86c12d99d155041747b8830bf373590b0dd3d00fc6ae1c) := by decide +kernel
example : cmpeq_epi64_mask (reg 64 0x996d372bb64ca4f30a86c12d99d155041747b8830bf373590b0dd3d00fc6ae1cd4023e67a2a6ad70a26626fd3e4f67afef1066fa344f2c732f2273d83d2e1a14) (reg 64 0x996d372bb64ca4f3f5793ed2662eaafb1747b8830bf37359f4f22c2ff03951e3d4023e67a2a6ad705d99d902c1b09850ef1066fa344f2c73d0dd8c27c2d1e5eb) = 170#8 := by decide +kernel
example : test_epi64_mask (reg 64 0x996d372bb64ca4f30a86c12d99d155041747b8830bf373590b0dd3d00fc6ae1cd4023e67a2a6ad70a26626fd3e4f67afef1066fa344f2c732f2273d83d2e1a14) (reg 64 0x996d372bb64ca4f3f5793ed2662eaafb1747b8830bf37359f4f22c2ff03951e3d4023e67a2a6ad705d99d902c1b09850ef1066fa344f2c73d0dd8c27c2d1e5eb) = 170#8 := by decide +kernel

example : setzero = (reg 16 0x00000000000000000000000000000000) := by decide +kernel
example : setzero = (reg 32 0x0000000000000000000000000000000000000000000000000000000000000000) := by decide +kernel
example : setzero = (reg 64 0x00000000000000000000000000000000000000000000000000000000000000000000000000000000000000000000000000000000000000000000000000000000) := by decide +kernel
example : set1_minus1 = (reg 16 0xffffffffffffffffffffffffffffffff) := by decide +kernel
example : set1_minus1 = (reg 32 0xffffffffffffffffffffffffffffffffffffffffffffffffffffffffffffffff) := by decide +kernel
example : set1_minus1 = (reg 64 0xffffffffffffffffffffffffffffffffffffffffffffffffffffffffffffffffffffffffffffffffffffffffffffffffffffffffffffffffffffffffffffffff) := by decide +kernel
end Aes.IsaHardware
