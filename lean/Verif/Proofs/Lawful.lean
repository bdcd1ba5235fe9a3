import Verif.Model.Lib
import Verif.Spec.Block
import Verif.Proofs.Gf
/-!
The laws every implementation is proved to satisfy, in terms of the bytes a value stands for. These are
proof devices: the property theorems (Verif/Properties) are stated without them.
-/
namespace Aes
open Rust AesSpec

/-- Data laws of a block type: values are in bijection with byte arrays, and every non-cryptographic
operation acts on those bytes. Holds for all three block types of every target. -/
class LawfulVec (T : Type) {n : outParam Nat} [AesVec T n] where
  /-- the bytes a value stands for -/
  view : T → Bytes n
  /-- the value with the given bytes -/
  ofB : Bytes n → T
  view_ofB : ∀ v, view (ofB v) = v
  ofB_view : ∀ t : T, ofB (view t) = t
  new_eq : ∀ v, AesVec.new v = .ok (ofB v)
  from_bytes_eq : ∀ v, AesVec.from_bytes v = .ok (ofB v)
  store_to_ok : ∀ (t : T) (dst : List U8), n ≤ dst.length → AesVec.store_to t dst = .ok ((view t).toList ++ dst.drop n)
  store_to_short : ∀ (t : T) (dst : List U8), dst.length < n → AesVec.store_to t dst = .error .panic
  view_zero : view AesVec.zero = zeroB n
  is_zero_eq : ∀ t : T, AesVec.is_zero t = decide (view t = zeroB n)
  eq_eq : ∀ a b : T, AesVec.eq a b = decide (view a = view b)
  view_and : ∀ a b : T, view (AesVec.bitand a b) = andB (view a) (view b)
  view_or : ∀ a b : T, view (AesVec.bitor a b) = orB (view a) (view b)
  view_xor : ∀ a b : T, view (AesVec.bitxor a b) = xorB (view a) (view b)
  view_not : ∀ a : T, view (AesVec.not a) = notB (view a)

export LawfulVec (view ofB)

/-- Encryption rounds are the FIPS ones (every target). -/
class LawfulEnc (B : Type) [AesBlock B] [LawfulVec B] : Prop where
  view_enc : ∀ a k : B, view (AesVec.enc a k) = encRound (view a) (view k)
  view_enc_last : ∀ a k : B, view (AesVec.enc_last a k) = encLastRound (view a) (view k)

/-- Decryption rounds and (Inv)MixColumns are the FIPS ones (every target but riscv32). -/
class LawfulDec (B : Type) [AesBlock B] [LawfulVec B] : Prop where
  view_dec : ∀ a k : B, view (AesVec.dec a k) = decRound (view a) (view k)
  view_dec_last : ∀ a k : B, view (AesVec.dec_last a k) = decLastRound (view a) (view k)
  view_mc : ∀ a : B, view (AesBlock.mc a) = mixCols (view a)
  view_imc : ∀ a : B, view (AesBlock.imc a) = invMixCols (view a)

/-- Where a type has `pre_enc`/`pre_dec`, they add the key before the round (every target but riscv32). -/
class LawfulPre (T : Type) {n : outParam Nat} [AesVec T n] : Prop where
  pre_enc_eq : ∀ p, (AesVec.pre : Option (Pre T)) = some p →
    ∀ (a k : T) (k' : T), AesVec.bitxor (p.pre_enc a k) k' = AesVec.enc (AesVec.bitxor a k) k'
  pre_dec_eq : ∀ p, (AesVec.pre : Option (Pre T)) = some p →
    ∀ (a k : T) (k' : T), AesVec.bitxor (p.pre_dec a k) k' = AesVec.dec (AesVec.bitxor a k) k'

/-- The key schedules are the FIPS ones (every target but riscv32 and big-endian bitslice). -/
class LawfulKeygen (B : Type) [AesBlock B] [LawfulVec B] : Prop where
  keygen_128_eq : ∀ key, (AesBlock.keygen_128 key : M (Vector B 11)) =
    .ok (Vector.ofFn fun r => ofB (roundKeyBytes (Fips197.keyExpansion 4 key) r))
  keygen_192_eq : ∀ key, (AesBlock.keygen_192 key : M (Vector B 13)) =
    .ok (Vector.ofFn fun r => ofB (roundKeyBytes (Fips197.keyExpansion 6 key) r))
  keygen_256_eq : ∀ key, (AesBlock.keygen_256 key : M (Vector B 15)) =
    .ok (Vector.ofFn fun r => ofB (roundKeyBytes (Fips197.keyExpansion 8 key) r))

/-- `pre_enc`/`pre_dec` of a pair type act on the halves, or neither type has them. -/
def PreLanes {U T : Type} (f : U × U → T) (pu : Option (Pre U)) (pt : Option (Pre T)) : Prop :=
  (pu = none ∧ pt = none) ∨ ∃ p q, pu = some p ∧ pt = some q ∧
    (∀ a b c d, q.pre_enc (f (a, b)) (f (c, d)) = f (p.pre_enc a c, p.pre_enc b d)) ∧
    (∀ a b c d, q.pre_dec (f (a, b)) (f (c, d)) = f (p.pre_dec a c, p.pre_dec b d))

/-- Conversions and lane-wise rounds of `AesBlockX2` (every target). -/
class LawfulX2 {B : outParam Type} (X2 : Type) [AesBlock B] [LawfulVec B] [AesBlockX2 B X2] [LawfulVec X2] : Prop where
  view_from_pair : ∀ a b : B, view (AesBlockX2.from_pair (a, b) : X2) = (view a ++ view b : Bytes (16 + 16))
  to_pair_from_pair : ∀ a b : B, AesBlockX2.to_pair (AesBlockX2.from_pair (a, b) : X2) = (a, b)
  from_block_eq : ∀ b : B, (AesBlockX2.from_block b : X2) = AesBlockX2.from_pair (b, b)
  enc_eq : ∀ a b c d : B, (AesVec.enc (AesBlockX2.from_pair (a, b)) (AesBlockX2.from_pair (c, d)) : X2)
    = AesBlockX2.from_pair (AesVec.enc a c, AesVec.enc b d)
  dec_eq : ∀ a b c d : B, (AesVec.dec (AesBlockX2.from_pair (a, b)) (AesBlockX2.from_pair (c, d)) : X2)
    = AesBlockX2.from_pair (AesVec.dec a c, AesVec.dec b d)
  enc_last_eq : ∀ a b c d : B, (AesVec.enc_last (AesBlockX2.from_pair (a, b)) (AesBlockX2.from_pair (c, d)) : X2)
    = AesBlockX2.from_pair (AesVec.enc_last a c, AesVec.enc_last b d)
  dec_last_eq : ∀ a b c d : B, (AesVec.dec_last (AesBlockX2.from_pair (a, b)) (AesBlockX2.from_pair (c, d)) : X2)
    = AesBlockX2.from_pair (AesVec.dec_last a c, AesVec.dec_last b d)
  pre_lanes : PreLanes (AesBlockX2.from_pair : B × B → X2) AesVec.pre AesVec.pre

/-- Conversions and lane-wise rounds of `AesBlockX4`, in terms of its two halves (every target). -/
class LawfulX4 {B X2 : outParam Type} (X4 : Type) [AesBlock B] [LawfulVec B] [AesBlockX2 B X2]
    [LawfulVec X2] [AesBlockX4 B X2 X4] [LawfulVec X4] : Prop where
  view_from_x2_pair : ∀ a b : X2, view (AesBlockX4.from_x2_pair (a, b) : X4) = (view a ++ view b : Bytes (32 + 32))
  to_x2_pair_from_x2_pair : ∀ a b : X2, AesBlockX4.to_x2_pair (AesBlockX4.from_x2_pair (a, b) : X4) = (a, b)
  from_quad_eq : ∀ a b c d : B, (AesBlockX4.from_quad (a, b, c, d) : X4)
    = AesBlockX4.from_x2_pair (AesBlockX2.from_pair (a, b), AesBlockX2.from_pair (c, d))
  to_quad_from_quad : ∀ a b c d : B, AesBlockX4.to_quad (AesBlockX4.from_quad (a, b, c, d) : X4) = (a, b, c, d)
  from_block_eq : ∀ b : B, (AesBlockX4.from_block b : X4) = AesBlockX4.from_quad (b, b, b, b)
  from_x2_eq : ∀ x : X2, (AesBlockX4.from_x2 x : X4) = AesBlockX4.from_x2_pair (x, x)
  enc_eq : ∀ a b c d : X2, (AesVec.enc (AesBlockX4.from_x2_pair (a, b)) (AesBlockX4.from_x2_pair (c, d)) : X4)
    = AesBlockX4.from_x2_pair (AesVec.enc a c, AesVec.enc b d)
  dec_eq : ∀ a b c d : X2, (AesVec.dec (AesBlockX4.from_x2_pair (a, b)) (AesBlockX4.from_x2_pair (c, d)) : X4)
    = AesBlockX4.from_x2_pair (AesVec.dec a c, AesVec.dec b d)
  enc_last_eq : ∀ a b c d : X2, (AesVec.enc_last (AesBlockX4.from_x2_pair (a, b)) (AesBlockX4.from_x2_pair (c, d)) : X4)
    = AesBlockX4.from_x2_pair (AesVec.enc_last a c, AesVec.enc_last b d)
  dec_last_eq : ∀ a b c d : X2, (AesVec.dec_last (AesBlockX4.from_x2_pair (a, b)) (AesBlockX4.from_x2_pair (c, d)) : X4)
    = AesBlockX4.from_x2_pair (AesVec.dec_last a c, AesVec.dec_last b d)
  pre_lanes : PreLanes (AesBlockX4.from_x2_pair : X2 × X2 → X4) AesVec.pre AesVec.pre

section
variable {T : Type} {n : Nat} [AesVec T n] [LawfulVec T]

theorem view_inj {a b : T} (h : view a = view b) : a = b := by
  rw [← LawfulVec.ofB_view a, h, LawfulVec.ofB_view]
theorem eq_ofB (t : T) : t = ofB (view t) := (LawfulVec.ofB_view t).symm

theorem into_bytes_eq (t : T) : into_bytes t = .ok (view t) := by
  unfold into_bytes
  rw [LawfulVec.store_to_ok t _ (by simp)]
  simp only [Bind.bind, Except.bind, arrayTryFrom]
  have : ((view t).toList ++ (List.replicate n (0#8)).drop n).length = n := by simp
  rw [dif_pos this]
  congr 1
  apply Vector.ext
  intro i hi
  simp

end
end Aes
