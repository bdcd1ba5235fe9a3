import Verif.Proofs.EndToEnd
import Verif.Proofs.Decide
/-!
C07, C08, C30: the operations on `AesBlockX2` and `AesBlockX4` are the single-block operations on each
component, on every target (riscv32 and big-endian bitslice included).
-/
namespace Aes
open Rust AesSpec Fips197 AesVec AesBlock Target

variable (t : Target)

/-- C07: `encrypt_2_blocks` encrypts each block on its own. Any encrypter, any round keys. -/
theorem C07_encrypt_2_blocks {nr : Nat} (e : AesEnc t.Block nr) (a b : t.Block) :
    e.encrypt_2_blocks (AesBlockX2.from_pair (a, b) : t.X2) = (do
      let x ← e.encrypt_block a
      let y ← e.encrypt_block b
      pure (AesBlockX2.from_pair (x, y))) := encrypt_2_blocks_ok e a b
/-- C07: `encrypt_4_blocks` encrypts each block on its own. -/
theorem C07_encrypt_4_blocks {nr : Nat} (e : AesEnc t.Block nr) (a b c d : t.Block) :
    e.encrypt_4_blocks (AesBlockX4.from_quad (a, b, c, d) : t.X4) = (do
      let w ← e.encrypt_block a
      let x ← e.encrypt_block b
      let y ← e.encrypt_block c
      let z ← e.encrypt_block d
      pure (AesBlockX4.from_quad (w, x, y, z))) := encrypt_4_blocks_ok e a b c d
/-- C08: `decrypt_2_blocks` decrypts each block on its own. -/
theorem C08_decrypt_2_blocks {nr : Nat} (e : AesDec t.Block nr) (a b : t.Block) :
    e.decrypt_2_blocks (AesBlockX2.from_pair (a, b) : t.X2) = (do
      let x ← e.decrypt_block a
      let y ← e.decrypt_block b
      pure (AesBlockX2.from_pair (x, y))) := decrypt_2_blocks_ok e a b
/-- C08: `decrypt_4_blocks` decrypts each block on its own. -/
theorem C08_decrypt_4_blocks {nr : Nat} (e : AesDec t.Block nr) (a b c d : t.Block) :
    e.decrypt_4_blocks (AesBlockX4.from_quad (a, b, c, d) : t.X4) = (do
      let w ← e.decrypt_block a
      let x ← e.decrypt_block b
      let y ← e.decrypt_block c
      let z ← e.decrypt_block d
      pure (AesBlockX4.from_quad (w, x, y, z))) := decrypt_4_blocks_ok e a b c d

/-- C07/C08 cover every argument: each wide value is a tuple of blocks. -/
theorem C07_every_x2_is_a_pair (x : t.X2) : ∃ a b : t.Block, x = AesBlockX2.from_pair (a, b) := x2_surj x
theorem C07_every_x4_is_a_quad (x : t.X4) : ∃ a b c d : t.Block, x = AesBlockX4.from_quad (a, b, c, d) := by
  obtain ⟨p, q, rfl⟩ := x4_surj x
  obtain ⟨a, b, rfl⟩ := x2_surj p
  obtain ⟨c, d, rfl⟩ := x2_surj q
  exact ⟨a, b, c, d, (LawfulX4.from_quad_eq a b c d).symm⟩

/-! End to end on bytes (`++` is concatenation of arrays). -/
/-- C07 on bytes: two AES-128 encryptions side by side. -/
theorem C07_aes128_x2 (hrv : t ≠ .riscv32) (hbe : t ≠ .bitslice .big) (key : Bytes 16) (p0 p1 : Bytes 16) :
    (do
      let c : AesEnc t.Block 10 ← Aes128Enc.from key
      let x : t.X2 ← from_bytes (p0 ++ p1 : Bytes (16 + 16))
      let y ← c.encrypt_2_blocks x
      into_bytes y) =
    .ok (aes128 key p0 ++ aes128 key p1 : Bytes (16 + 16)) := by
  have := t.lawfulPre hrv
  have hx : (ofB (p0 ++ p1 : Bytes (16 + 16)) : t.X2) = AesBlockX2.from_pair (ofB p0, ofB p1) := view_inj (by
    rw [LawfulX2.view_from_pair]; simp only [LawfulVec.view_ofB])
  rw [t.enc128_from, bind_ok, LawfulVec.from_bytes_eq, bind_ok, hx, encrypt_2_blocks_ok]
  simp only [encrypt_rkVec (show 0 < 10 by omega), bind_ok, LawfulVec.view_ofB, Target.temp_std t hrv hbe,
      Target.keyExpansionWith_std', pure_bind, into_bytes_eq, LawfulX2.view_from_pair]
  rfl
/-- C07 on bytes: four AES-128 encryptions side by side. -/
theorem C07_aes128_x4 (hrv : t ≠ .riscv32) (hbe : t ≠ .bitslice .big) (key : Bytes 16) (p0 p1 p2 p3 : Bytes 16) :
    (do
      let c : AesEnc t.Block 10 ← Aes128Enc.from key
      let x : t.X4 ← from_bytes ((p0 ++ p1) ++ (p2 ++ p3) : Bytes (32 + 32))
      let y ← c.encrypt_4_blocks x
      into_bytes y) =
    .ok ((aes128 key p0 ++ aes128 key p1) ++ (aes128 key p2 ++ aes128 key p3) : Bytes (32 + 32)) := by
  have := t.lawfulPre hrv
  have hx : (ofB ((p0 ++ p1) ++ (p2 ++ p3) : Bytes (32 + 32)) : t.X4) =
      AesBlockX4.from_quad (ofB p0, ofB p1, ofB p2, ofB p3) := view_inj (by
    rw [view_from_quad]; simp only [LawfulVec.view_ofB])
  rw [t.enc128_from, bind_ok, LawfulVec.from_bytes_eq, bind_ok, hx, encrypt_4_blocks_ok]
  simp only [encrypt_rkVec (show 0 < 10 by omega), bind_ok, LawfulVec.view_ofB, Target.temp_std t hrv hbe,
      Target.keyExpansionWith_std', pure_bind, into_bytes_eq, view_from_quad]
  rfl
/-- C07 on bytes: two AES-192 encryptions side by side. -/
theorem C07_aes192_x2 (hrv : t ≠ .riscv32) (hbe : t ≠ .bitslice .big) (key : Bytes 24) (p0 p1 : Bytes 16) :
    (do
      let c : AesEnc t.Block 12 ← Aes192Enc.from key
      let x : t.X2 ← from_bytes (p0 ++ p1 : Bytes (16 + 16))
      let y ← c.encrypt_2_blocks x
      into_bytes y) =
    .ok (aes192 key p0 ++ aes192 key p1 : Bytes (16 + 16)) := by
  have := t.lawfulPre hrv
  have hx : (ofB (p0 ++ p1 : Bytes (16 + 16)) : t.X2) = AesBlockX2.from_pair (ofB p0, ofB p1) := view_inj (by
    rw [LawfulX2.view_from_pair]; simp only [LawfulVec.view_ofB])
  rw [t.enc192_from, bind_ok, LawfulVec.from_bytes_eq, bind_ok, hx, encrypt_2_blocks_ok]
  simp only [encrypt_rkVec (show 0 < 12 by omega), bind_ok, LawfulVec.view_ofB, Target.temp_std t hrv hbe,
      Target.keyExpansionWith_std', pure_bind, into_bytes_eq, LawfulX2.view_from_pair]
  rfl
/-- C07 on bytes: four AES-192 encryptions side by side. -/
theorem C07_aes192_x4 (hrv : t ≠ .riscv32) (hbe : t ≠ .bitslice .big) (key : Bytes 24) (p0 p1 p2 p3 : Bytes 16) :
    (do
      let c : AesEnc t.Block 12 ← Aes192Enc.from key
      let x : t.X4 ← from_bytes ((p0 ++ p1) ++ (p2 ++ p3) : Bytes (32 + 32))
      let y ← c.encrypt_4_blocks x
      into_bytes y) =
    .ok ((aes192 key p0 ++ aes192 key p1) ++ (aes192 key p2 ++ aes192 key p3) : Bytes (32 + 32)) := by
  have := t.lawfulPre hrv
  have hx : (ofB ((p0 ++ p1) ++ (p2 ++ p3) : Bytes (32 + 32)) : t.X4) =
      AesBlockX4.from_quad (ofB p0, ofB p1, ofB p2, ofB p3) := view_inj (by
    rw [view_from_quad]; simp only [LawfulVec.view_ofB])
  rw [t.enc192_from, bind_ok, LawfulVec.from_bytes_eq, bind_ok, hx, encrypt_4_blocks_ok]
  simp only [encrypt_rkVec (show 0 < 12 by omega), bind_ok, LawfulVec.view_ofB, Target.temp_std t hrv hbe,
      Target.keyExpansionWith_std', pure_bind, into_bytes_eq, view_from_quad]
  rfl
/-- C07 on bytes: two AES-256 encryptions side by side. -/
theorem C07_aes256_x2 (hrv : t ≠ .riscv32) (hbe : t ≠ .bitslice .big) (key : Bytes 32) (p0 p1 : Bytes 16) :
    (do
      let c : AesEnc t.Block 14 ← Aes256Enc.from key
      let x : t.X2 ← from_bytes (p0 ++ p1 : Bytes (16 + 16))
      let y ← c.encrypt_2_blocks x
      into_bytes y) =
    .ok (aes256 key p0 ++ aes256 key p1 : Bytes (16 + 16)) := by
  have := t.lawfulPre hrv
  have hx : (ofB (p0 ++ p1 : Bytes (16 + 16)) : t.X2) = AesBlockX2.from_pair (ofB p0, ofB p1) := view_inj (by
    rw [LawfulX2.view_from_pair]; simp only [LawfulVec.view_ofB])
  rw [t.enc256_from, bind_ok, LawfulVec.from_bytes_eq, bind_ok, hx, encrypt_2_blocks_ok]
  simp only [encrypt_rkVec (show 0 < 14 by omega), bind_ok, LawfulVec.view_ofB, Target.temp_std t hrv hbe,
      Target.keyExpansionWith_std', pure_bind, into_bytes_eq, LawfulX2.view_from_pair]
  rfl
/-- C07 on bytes: four AES-256 encryptions side by side. -/
theorem C07_aes256_x4 (hrv : t ≠ .riscv32) (hbe : t ≠ .bitslice .big) (key : Bytes 32) (p0 p1 p2 p3 : Bytes 16) :
    (do
      let c : AesEnc t.Block 14 ← Aes256Enc.from key
      let x : t.X4 ← from_bytes ((p0 ++ p1) ++ (p2 ++ p3) : Bytes (32 + 32))
      let y ← c.encrypt_4_blocks x
      into_bytes y) =
    .ok ((aes256 key p0 ++ aes256 key p1) ++ (aes256 key p2 ++ aes256 key p3) : Bytes (32 + 32)) := by
  have := t.lawfulPre hrv
  have hx : (ofB ((p0 ++ p1) ++ (p2 ++ p3) : Bytes (32 + 32)) : t.X4) =
      AesBlockX4.from_quad (ofB p0, ofB p1, ofB p2, ofB p3) := view_inj (by
    rw [view_from_quad]; simp only [LawfulVec.view_ofB])
  rw [t.enc256_from, bind_ok, LawfulVec.from_bytes_eq, bind_ok, hx, encrypt_4_blocks_ok]
  simp only [encrypt_rkVec (show 0 < 14 by omega), bind_ok, LawfulVec.view_ofB, Target.temp_std t hrv hbe,
      Target.keyExpansionWith_std', pure_bind, into_bytes_eq, view_from_quad]
  rfl
/-- C08 on bytes: two AES-128 decryptions side by side. -/
theorem C08_aes128_x2 (hrv : t ≠ .riscv32) (hbe : t ≠ .bitslice .big) (key : Bytes 16) (p0 p1 : Bytes 16) :
    (do
      let c : AesDec t.Block 10 ← Aes128Dec.from key
      let x : t.X2 ← from_bytes (p0 ++ p1 : Bytes (16 + 16))
      let y ← c.decrypt_2_blocks x
      into_bytes y) =
    .ok (aes128Inv key p0 ++ aes128Inv key p1 : Bytes (16 + 16)) := by
  have := t.lawfulPre hrv
  have := t.lawfulDec hrv
  have hx : (ofB (p0 ++ p1 : Bytes (16 + 16)) : t.X2) = AesBlockX2.from_pair (ofB p0, ofB p1) := view_inj (by
    rw [LawfulX2.view_from_pair]; simp only [LawfulVec.view_ofB])
  rw [t.dec128_from, bind_ok, LawfulVec.from_bytes_eq, bind_ok, hx, decrypt_2_blocks_ok]
  simp only [decrypt_rkVec (show 0 < 10 by omega), bind_ok, LawfulVec.view_ofB, Target.temp_std t hrv hbe,
      Target.keyExpansionWith_std', pure_bind, into_bytes_eq, LawfulX2.view_from_pair]
  rfl
/-- C08 on bytes: four AES-128 decryptions side by side. -/
theorem C08_aes128_x4 (hrv : t ≠ .riscv32) (hbe : t ≠ .bitslice .big) (key : Bytes 16) (p0 p1 p2 p3 : Bytes 16) :
    (do
      let c : AesDec t.Block 10 ← Aes128Dec.from key
      let x : t.X4 ← from_bytes ((p0 ++ p1) ++ (p2 ++ p3) : Bytes (32 + 32))
      let y ← c.decrypt_4_blocks x
      into_bytes y) =
    .ok ((aes128Inv key p0 ++ aes128Inv key p1) ++ (aes128Inv key p2 ++ aes128Inv key p3) : Bytes (32 + 32)) := by
  have := t.lawfulPre hrv
  have := t.lawfulDec hrv
  have hx : (ofB ((p0 ++ p1) ++ (p2 ++ p3) : Bytes (32 + 32)) : t.X4) =
      AesBlockX4.from_quad (ofB p0, ofB p1, ofB p2, ofB p3) := view_inj (by
    rw [view_from_quad]; simp only [LawfulVec.view_ofB])
  rw [t.dec128_from, bind_ok, LawfulVec.from_bytes_eq, bind_ok, hx, decrypt_4_blocks_ok]
  simp only [decrypt_rkVec (show 0 < 10 by omega), bind_ok, LawfulVec.view_ofB, Target.temp_std t hrv hbe,
      Target.keyExpansionWith_std', pure_bind, into_bytes_eq, view_from_quad]
  rfl
/-- C08 on bytes: two AES-192 decryptions side by side. -/
theorem C08_aes192_x2 (hrv : t ≠ .riscv32) (hbe : t ≠ .bitslice .big) (key : Bytes 24) (p0 p1 : Bytes 16) :
    (do
      let c : AesDec t.Block 12 ← Aes192Dec.from key
      let x : t.X2 ← from_bytes (p0 ++ p1 : Bytes (16 + 16))
      let y ← c.decrypt_2_blocks x
      into_bytes y) =
    .ok (aes192Inv key p0 ++ aes192Inv key p1 : Bytes (16 + 16)) := by
  have := t.lawfulPre hrv
  have := t.lawfulDec hrv
  have hx : (ofB (p0 ++ p1 : Bytes (16 + 16)) : t.X2) = AesBlockX2.from_pair (ofB p0, ofB p1) := view_inj (by
    rw [LawfulX2.view_from_pair]; simp only [LawfulVec.view_ofB])
  rw [t.dec192_from, bind_ok, LawfulVec.from_bytes_eq, bind_ok, hx, decrypt_2_blocks_ok]
  simp only [decrypt_rkVec (show 0 < 12 by omega), bind_ok, LawfulVec.view_ofB, Target.temp_std t hrv hbe,
      Target.keyExpansionWith_std', pure_bind, into_bytes_eq, LawfulX2.view_from_pair]
  rfl
/-- C08 on bytes: four AES-192 decryptions side by side. -/
theorem C08_aes192_x4 (hrv : t ≠ .riscv32) (hbe : t ≠ .bitslice .big) (key : Bytes 24) (p0 p1 p2 p3 : Bytes 16) :
    (do
      let c : AesDec t.Block 12 ← Aes192Dec.from key
      let x : t.X4 ← from_bytes ((p0 ++ p1) ++ (p2 ++ p3) : Bytes (32 + 32))
      let y ← c.decrypt_4_blocks x
      into_bytes y) =
    .ok ((aes192Inv key p0 ++ aes192Inv key p1) ++ (aes192Inv key p2 ++ aes192Inv key p3) : Bytes (32 + 32)) := by
  have := t.lawfulPre hrv
  have := t.lawfulDec hrv
  have hx : (ofB ((p0 ++ p1) ++ (p2 ++ p3) : Bytes (32 + 32)) : t.X4) =
      AesBlockX4.from_quad (ofB p0, ofB p1, ofB p2, ofB p3) := view_inj (by
    rw [view_from_quad]; simp only [LawfulVec.view_ofB])
  rw [t.dec192_from, bind_ok, LawfulVec.from_bytes_eq, bind_ok, hx, decrypt_4_blocks_ok]
  simp only [decrypt_rkVec (show 0 < 12 by omega), bind_ok, LawfulVec.view_ofB, Target.temp_std t hrv hbe,
      Target.keyExpansionWith_std', pure_bind, into_bytes_eq, view_from_quad]
  rfl
/-- C08 on bytes: two AES-256 decryptions side by side. -/
theorem C08_aes256_x2 (hrv : t ≠ .riscv32) (hbe : t ≠ .bitslice .big) (key : Bytes 32) (p0 p1 : Bytes 16) :
    (do
      let c : AesDec t.Block 14 ← Aes256Dec.from key
      let x : t.X2 ← from_bytes (p0 ++ p1 : Bytes (16 + 16))
      let y ← c.decrypt_2_blocks x
      into_bytes y) =
    .ok (aes256Inv key p0 ++ aes256Inv key p1 : Bytes (16 + 16)) := by
  have := t.lawfulPre hrv
  have := t.lawfulDec hrv
  have hx : (ofB (p0 ++ p1 : Bytes (16 + 16)) : t.X2) = AesBlockX2.from_pair (ofB p0, ofB p1) := view_inj (by
    rw [LawfulX2.view_from_pair]; simp only [LawfulVec.view_ofB])
  rw [t.dec256_from, bind_ok, LawfulVec.from_bytes_eq, bind_ok, hx, decrypt_2_blocks_ok]
  simp only [decrypt_rkVec (show 0 < 14 by omega), bind_ok, LawfulVec.view_ofB, Target.temp_std t hrv hbe,
      Target.keyExpansionWith_std', pure_bind, into_bytes_eq, LawfulX2.view_from_pair]
  rfl
/-- C08 on bytes: four AES-256 decryptions side by side. -/
theorem C08_aes256_x4 (hrv : t ≠ .riscv32) (hbe : t ≠ .bitslice .big) (key : Bytes 32) (p0 p1 p2 p3 : Bytes 16) :
    (do
      let c : AesDec t.Block 14 ← Aes256Dec.from key
      let x : t.X4 ← from_bytes ((p0 ++ p1) ++ (p2 ++ p3) : Bytes (32 + 32))
      let y ← c.decrypt_4_blocks x
      into_bytes y) =
    .ok ((aes256Inv key p0 ++ aes256Inv key p1) ++ (aes256Inv key p2 ++ aes256Inv key p3) : Bytes (32 + 32)) := by
  have := t.lawfulPre hrv
  have := t.lawfulDec hrv
  have hx : (ofB ((p0 ++ p1) ++ (p2 ++ p3) : Bytes (32 + 32)) : t.X4) =
      AesBlockX4.from_quad (ofB p0, ofB p1, ofB p2, ofB p3) := view_inj (by
    rw [view_from_quad]; simp only [LawfulVec.view_ofB])
  rw [t.dec256_from, bind_ok, LawfulVec.from_bytes_eq, bind_ok, hx, decrypt_4_blocks_ok]
  simp only [decrypt_rkVec (show 0 < 14 by omega), bind_ok, LawfulVec.view_ofB, Target.temp_std t hrv hbe,
      Target.keyExpansionWith_std', pure_bind, into_bytes_eq, view_from_quad]
  rfl

/-! ### C30: every operation is lane-wise -/
section x2
variable (a b c d : t.Block)

/-- C30: `&` on `AesBlockX2`. -/
theorem C30_and_x2 : (bitand (AesBlockX2.from_pair (a, b)) (AesBlockX2.from_pair (c, d)) : t.X2) =
    AesBlockX2.from_pair (bitand a c, bitand b d) := view_inj (by
  simp only [LawfulVec.view_and, LawfulX2.view_from_pair]; exact (zipWith_append' _ _ _ _ _).symm)
/-- C30: `|` on `AesBlockX2`. -/
theorem C30_or_x2 : (bitor (AesBlockX2.from_pair (a, b)) (AesBlockX2.from_pair (c, d)) : t.X2) =
    AesBlockX2.from_pair (bitor a c, bitor b d) := view_inj (by
  simp only [LawfulVec.view_or, LawfulX2.view_from_pair]; exact (zipWith_append' _ _ _ _ _).symm)
/-- C30: `^` on `AesBlockX2`. -/
theorem C30_xor_x2 : (bitxor (AesBlockX2.from_pair (a, b)) (AesBlockX2.from_pair (c, d)) : t.X2) =
    AesBlockX2.from_pair (bitxor a c, bitxor b d) := lanes_x2.xor a b c d
/-- C30: `!` on `AesBlockX2`. -/
theorem C30_not_x2 : (AesVec.not (AesBlockX2.from_pair (a, b)) : t.X2) =
    AesBlockX2.from_pair (AesVec.not a, AesVec.not b) := view_inj (by
  simp only [LawfulVec.view_not, LawfulX2.view_from_pair]; exact Vector.map_append)
/-- C30: `zero` of `AesBlockX2`. -/
theorem C30_zero_x2 : (zero : t.X2) = AesBlockX2.from_pair (zero, zero) := view_inj (by
  simp only [LawfulVec.view_zero, LawfulX2.view_from_pair]; exact (Vector.replicate_append_replicate (n := 16) (m := 16)).symm)
/-- C30: `==` on `AesBlockX2`. -/
theorem C30_eq_x2 : AesVec.eq (AesBlockX2.from_pair (a, b) : t.X2) (AesBlockX2.from_pair (c, d)) =
    (AesVec.eq a c && AesVec.eq b d) := by
  rw [LawfulVec.eq_eq, LawfulVec.eq_eq, LawfulVec.eq_eq, LawfulX2.view_from_pair, LawfulX2.view_from_pair,
    ← Bool.decide_and]
  refine decide_eq_decide.mpr ⟨fun h => ?_, fun ⟨h1, h2⟩ => by rw [h1, h2]⟩
  have := Vector.append_inj h
  exact this
/-- C30: `is_zero` on `AesBlockX2`. -/
theorem C30_is_zero_x2 : is_zero (AesBlockX2.from_pair (a, b) : t.X2) = (is_zero a && is_zero b) := by
  have h := C30_eq_x2 t a b zero zero
  rw [← C30_zero_x2] at h
  simp only [LawfulVec.eq_eq, LawfulVec.view_zero] at h
  simp only [LawfulVec.is_zero_eq]; exact h
/-- C30: rounds on `AesBlockX2`. -/
theorem C30_rounds_x2 :
    (enc (AesBlockX2.from_pair (a, b)) (AesBlockX2.from_pair (c, d)) : t.X2) = AesBlockX2.from_pair (enc a c, enc b d) ∧
    (dec (AesBlockX2.from_pair (a, b)) (AesBlockX2.from_pair (c, d)) : t.X2) = AesBlockX2.from_pair (dec a c, dec b d) ∧
    (enc_last (AesBlockX2.from_pair (a, b)) (AesBlockX2.from_pair (c, d)) : t.X2) =
      AesBlockX2.from_pair (enc_last a c, enc_last b d) ∧
    (dec_last (AesBlockX2.from_pair (a, b)) (AesBlockX2.from_pair (c, d)) : t.X2) =
      AesBlockX2.from_pair (dec_last a c, dec_last b d) :=
  ⟨lanes_x2.enc a b c d, lanes_x2.dec a b c d, lanes_x2.enc_last a b c d, lanes_x2.dec_last a b c d⟩
/-- C30: `chain_enc` on `AesBlockX2`, key slices of any length (panics included). -/
theorem C30_chain_enc_x2 (keys : List (t.Block × t.Block)) :
    chain_enc (AesBlockX2.from_pair (a, b) : t.X2) (keys.map AesBlockX2.from_pair) = (do
      let x ← chain_enc a (keys.map (·.1))
      let y ← chain_enc b (keys.map (·.2))
      pure (AesBlockX2.from_pair (x, y))) := lanes_x2.chain_enc a b keys
/-- C30: `chain_dec` on `AesBlockX2`. -/
theorem C30_chain_dec_x2 (keys : List (t.Block × t.Block)) :
    chain_dec (AesBlockX2.from_pair (a, b) : t.X2) (keys.map AesBlockX2.from_pair) = (do
      let x ← chain_dec a (keys.map (·.1))
      let y ← chain_dec b (keys.map (·.2))
      pure (AesBlockX2.from_pair (x, y))) := lanes_x2.chain_dec a b keys
end x2

section x4
variable (a b : t.X2) (c d : t.X2)

/-- C30: `&`, `|`, `^`, `!` on `AesBlockX4`, in terms of its halves. -/
theorem C30_bits_x4 :
    (bitand (AesBlockX4.from_x2_pair (a, b)) (AesBlockX4.from_x2_pair (c, d)) : t.X4) =
      AesBlockX4.from_x2_pair (bitand a c, bitand b d) ∧
    (bitor (AesBlockX4.from_x2_pair (a, b)) (AesBlockX4.from_x2_pair (c, d)) : t.X4) =
      AesBlockX4.from_x2_pair (bitor a c, bitor b d) ∧
    (bitxor (AesBlockX4.from_x2_pair (a, b)) (AesBlockX4.from_x2_pair (c, d)) : t.X4) =
      AesBlockX4.from_x2_pair (bitxor a c, bitxor b d) ∧
    (AesVec.not (AesBlockX4.from_x2_pair (a, b)) : t.X4) = AesBlockX4.from_x2_pair (AesVec.not a, AesVec.not b) := by
  refine ⟨view_inj ?_, view_inj ?_, lanes_x4.xor a b c d, view_inj ?_⟩
  · simp only [LawfulVec.view_and, LawfulX4.view_from_x2_pair]; exact (zipWith_append' _ _ _ _ _).symm
  · simp only [LawfulVec.view_or, LawfulX4.view_from_x2_pair]; exact (zipWith_append' _ _ _ _ _).symm
  · simp only [LawfulVec.view_not, LawfulX4.view_from_x2_pair]; exact Vector.map_append
/-- C30: `zero` of `AesBlockX4`. -/
theorem C30_zero_x4 : (zero : t.X4) = AesBlockX4.from_x2_pair (zero, zero) := view_inj (by
  simp only [LawfulVec.view_zero, LawfulX4.view_from_x2_pair]; exact (Vector.replicate_append_replicate (n := 32) (m := 32)).symm)
/-- C30: `==` on `AesBlockX4`. -/
theorem C30_eq_x4 : AesVec.eq (AesBlockX4.from_x2_pair (a, b) : t.X4) (AesBlockX4.from_x2_pair (c, d)) =
    (AesVec.eq a c && AesVec.eq b d) := by
  rw [LawfulVec.eq_eq, LawfulVec.eq_eq, LawfulVec.eq_eq, LawfulX4.view_from_x2_pair, LawfulX4.view_from_x2_pair,
    ← Bool.decide_and]
  refine decide_eq_decide.mpr ⟨fun h => ?_, fun ⟨h1, h2⟩ => by rw [h1, h2]⟩
  have := Vector.append_inj h
  exact this
/-- C30: `is_zero` on `AesBlockX4`. -/
theorem C30_is_zero_x4 : is_zero (AesBlockX4.from_x2_pair (a, b) : t.X4) = (is_zero a && is_zero b) := by
  have h := C30_eq_x4 t a b zero zero
  rw [← C30_zero_x4] at h
  simp only [LawfulVec.eq_eq, LawfulVec.view_zero] at h
  simp only [LawfulVec.is_zero_eq]; exact h
/-- C30: rounds on `AesBlockX4`. -/
theorem C30_rounds_x4 :
    (enc (AesBlockX4.from_x2_pair (a, b)) (AesBlockX4.from_x2_pair (c, d)) : t.X4) =
      AesBlockX4.from_x2_pair (enc a c, enc b d) ∧
    (dec (AesBlockX4.from_x2_pair (a, b)) (AesBlockX4.from_x2_pair (c, d)) : t.X4) =
      AesBlockX4.from_x2_pair (dec a c, dec b d) ∧
    (enc_last (AesBlockX4.from_x2_pair (a, b)) (AesBlockX4.from_x2_pair (c, d)) : t.X4) =
      AesBlockX4.from_x2_pair (enc_last a c, enc_last b d) ∧
    (dec_last (AesBlockX4.from_x2_pair (a, b)) (AesBlockX4.from_x2_pair (c, d)) : t.X4) =
      AesBlockX4.from_x2_pair (dec_last a c, dec_last b d) :=
  ⟨lanes_x4.enc a b c d, lanes_x4.dec a b c d, lanes_x4.enc_last a b c d, lanes_x4.dec_last a b c d⟩
/-- C30: `chain_enc` on `AesBlockX4`. -/
theorem C30_chain_enc_x4 (keys : List (t.X2 × t.X2)) :
    chain_enc (AesBlockX4.from_x2_pair (a, b) : t.X4) (keys.map AesBlockX4.from_x2_pair) = (do
      let x ← chain_enc a (keys.map (·.1))
      let y ← chain_enc b (keys.map (·.2))
      pure (AesBlockX4.from_x2_pair (x, y))) := lanes_x4.chain_enc a b keys
/-- C30: `chain_dec` on `AesBlockX4`. -/
theorem C30_chain_dec_x4 (keys : List (t.X2 × t.X2)) :
    chain_dec (AesBlockX4.from_x2_pair (a, b) : t.X4) (keys.map AesBlockX4.from_x2_pair) = (do
      let x ← chain_dec a (keys.map (·.1))
      let y ← chain_dec b (keys.map (·.2))
      pure (AesBlockX4.from_x2_pair (x, y))) := lanes_x4.chain_dec a b keys

/-- C30 in terms of four blocks: rounds on `AesBlockX4::from((a, b, c, d))`. -/
theorem C30_rounds_quad (p q r s k l m n : t.Block) :
    (enc (AesBlockX4.from_quad (p, q, r, s)) (AesBlockX4.from_quad (k, l, m, n)) : t.X4) =
      AesBlockX4.from_quad (enc p k, enc q l, enc r m, enc s n) ∧
    (dec (AesBlockX4.from_quad (p, q, r, s)) (AesBlockX4.from_quad (k, l, m, n)) : t.X4) =
      AesBlockX4.from_quad (dec p k, dec q l, dec r m, dec s n) ∧
    (enc_last (AesBlockX4.from_quad (p, q, r, s)) (AesBlockX4.from_quad (k, l, m, n)) : t.X4) =
      AesBlockX4.from_quad (enc_last p k, enc_last q l, enc_last r m, enc_last s n) ∧
    (dec_last (AesBlockX4.from_quad (p, q, r, s)) (AesBlockX4.from_quad (k, l, m, n)) : t.X4) =
      AesBlockX4.from_quad (dec_last p k, dec_last q l, dec_last r m, dec_last s n) := by
  simp only [LawfulX4.from_quad_eq, LawfulX4.enc_eq, LawfulX4.dec_eq, LawfulX4.enc_last_eq, LawfulX4.dec_last_eq,
    LawfulX2.enc_eq, LawfulX2.dec_eq, LawfulX2.enc_last_eq, LawfulX2.dec_last_eq, and_self]
end x4

/-! ### Concrete instances -/
/-- A single non-zero lane: `is_zero` sees it in either half (VAES-512 type). -/
example (z : Target.x86Vaes512.X2) (h : is_zero z = false) :
    is_zero (AesBlockX4.from_x2_pair (zero, z) : Target.x86Vaes512.X4) = false := by
  rw [C30_is_zero_x4, h, Bool.and_false]
/-- Lists of pairs of keys of every length are covered. -/
example (x : Target.x86Vaes.Block) :
    (List.replicate 9 (x, x)).map (AesBlockX2.from_pair : _ → Target.x86Vaes.X2) ≠ [] := by simp

end Aes
