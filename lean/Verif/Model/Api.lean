import Verif.Rust
/-
The API surface shared by all implementations, as classes: what `lib.rs` and a user of the crate can
call on `AesBlock`, `AesBlockX2` and `AesBlockX4`. One instance per `cfg`-selected module.
-/
namespace Aes
open Rust

/-- The crate-private methods `pre_enc`/`pre_dec`, which only some backends define
(src/aes_arm.rs:107-110,123-126, src/aes_riscv32.rs:125-128,147-150, src/lib.rs:348-366). -/
structure Pre (T : Type) where
  pre_enc : T → T → T
  pre_dec : T → T → T

/-- Inherent methods and std operator impls that all three block types have; `n` is the size in bytes.
(`AesBlock`: src/aes_*.rs; `AesBlockX2`: src/aesdefault_x2.rs, src/aesni_x2.rs;
`AesBlockX4`: src/aesdefault_x4.rs, src/aesni_x4.rs.) -/
class AesVec (T : Type) (n : outParam Nat) where
  /-- `T::new` -/
  new : Vector U8 n → M T
  /-- `<T as From<[u8; n]>>::from` -/
  from_bytes : Vector U8 n → M T
  /-- `T::store_to(self, dst: &mut [u8])`, returning the new contents of `dst` -/
  store_to : T → List U8 → M (List U8)
  /-- `T::zero` -/
  zero : T
  /-- `T::is_zero` -/
  is_zero : T → Bool
  /-- `PartialEq::eq` -/
  eq : T → T → Bool
  /-- `&` -/
  bitand : T → T → T
  /-- `|` -/
  bitor : T → T → T
  /-- `^` -/
  bitxor : T → T → T
  /-- `!` -/
  not : T → T
  enc : T → T → T
  dec : T → T → T
  enc_last : T → T → T
  dec_last : T → T → T
  /-- the crate-private `pre_enc`/`pre_dec`, where the configuration has them -/
  pre : Option (Pre T)

/-- What an `AesBlock` module provides to `lib.rs` on top of `AesVec`. -/
class AesBlock (B : Type) extends AesVec B 16 where
  mc : B → B
  imc : B → B
  keygen_128 : Vector U8 16 → M (Vector B 11)
  keygen_192 : Vector U8 24 → M (Vector B 13)
  keygen_256 : Vector U8 32 → M (Vector B 15)

/-- What an `AesBlockX2` module provides on top of `AesVec`. -/
class AesBlockX2 (B : outParam Type) (T : Type) extends AesVec T 32 where
  /-- `From<(AesBlock, AesBlock)> for AesBlockX2` -/
  from_pair : B × B → T
  /-- `From<AesBlockX2> for (AesBlock, AesBlock)` -/
  to_pair : T → B × B
  /-- `From<AesBlock> for AesBlockX2` -/
  from_block : B → T

/-- What an `AesBlockX4` module provides on top of `AesVec`. -/
class AesBlockX4 (B X2 : outParam Type) (T : Type) extends AesVec T 64 where
  /-- `From<(AesBlock, AesBlock, AesBlock, AesBlock)> for AesBlockX4` -/
  from_quad : B × B × B × B → T
  /-- `From<AesBlockX4> for (AesBlock, AesBlock, AesBlock, AesBlock)` -/
  to_quad : T → B × B × B × B
  /-- `From<(AesBlockX2, AesBlockX2)> for AesBlockX4` -/
  from_x2_pair : X2 × X2 → T
  /-- `From<AesBlockX4> for (AesBlockX2, AesBlockX2)` -/
  to_x2_pair : T → X2 × X2
  /-- `From<AesBlock> for AesBlockX4` -/
  from_block : B → T
  /-- `From<AesBlockX2> for AesBlockX4` -/
  from_x2 : X2 → T

end Aes
