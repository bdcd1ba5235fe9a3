import Verif.Gen.CrateTests
import Verif.Proofs.GenCrate
import Verif.Proofs.Profile
import Verif.Properties.Tests
/-
The tests printed from the source text are the tests of Model/Tests.lean.
-/
set_option linter.unusedSectionVars false
set_option maxRecDepth 20000
namespace RustSrc
open Rust Aes Aes.Target

theorem seq_ok (x : M Unit) : (x >>= fun _ => (.ok () : M Unit)) = x := by
  cases x with
  | error e => rfl
  | ok u => rfl
/-- The blocks of a vector. -/
def blk (t : Target) (v : Aes.Tests.Vec) : t.Block × t.Block := (ofB (toBe 16 v.1), ofB (toBe 16 v.2))
theorem vec_blk (t : Target) (v : Aes.Tests.Vec) : Aes.Tests.vec t v = .ok (blk t v) := Aes.Tests.vec_ofB t v
theorem finRange_128 : List.finRange 11 = [0, 1, 2, 3, 4, 5, 6, 7, 8, 9, 10] := by decide
theorem idx_ok_128 {T : Type} (v : Vector T 11) (i : Fin 11) : idx v i.val = .ok v[i.val] := by
  unfold idx
  rw [dif_pos i.isLt]
theorem finRange_192 : List.finRange 13 = [0, 1, 2, 3, 4, 5, 6, 7, 8, 9, 10, 11, 12] := by decide
theorem idx_ok_192 {T : Type} (v : Vector T 13) (i : Fin 13) : idx v i.val = .ok v[i.val] := by
  unfold idx
  rw [dif_pos i.isLt]
theorem finRange_256 : List.finRange 15 = [0, 1, 2, 3, 4, 5, 6, 7, 8, 9, 10, 11, 12, 13, 14] := by decide
theorem idx_ok_256 {T : Type} (v : Vector T 15) (i : Fin 15) : idx v i.val = .ok v[i.val] := by
  unfold idx
  rw [dif_pos i.isLt]

namespace Lib.Std.Tests
variable {t : Target} [Cfg]

theorem key128 : AES_128_KEY = .ok Aes.Tests.AES_128_KEY := by decide +kernel
theorem key192 : AES_192_KEY = .ok Aes.Tests.AES_192_KEY := by decide +kernel
theorem key256 : AES_256_KEY = .ok Aes.Tests.AES_256_KEY := by decide +kernel

theorem aesenc_eq : aesenc_test (B := t.Block) = Aes.Tests.aesenc_test t := by
  unfold aesenc_test Aes.Tests.aesenc_test Aes.Tests.assert_eq
  simp only [Lib.Std.from_u128_eq, pure_ok, seq_ok]
  rfl
theorem expansion_128_eq : expansion_of_128_bit_key (B := t.Block) = Aes.Tests.expansion_of_128_bit_key t := by
  unfold expansion_of_128_bit_key Aes.Tests.expansion_of_128_bit_key Aes.Tests.check_expanded Aes.Tests.assert_eq
  simp only [key128, Rust.bind_ok, Lib.Std.from_u128_eq, finRange_128, List.forM_eq_forM, List.forM_cons, List.forM_nil, idx_ok_128,
    Aes.Tests.from_u128_ofB, pure_ok]
  rfl
theorem expansion_192_eq : expansion_of_192_bit_key (B := t.Block) = Aes.Tests.expansion_of_192_bit_key t := by
  unfold expansion_of_192_bit_key Aes.Tests.expansion_of_192_bit_key Aes.Tests.check_expanded Aes.Tests.assert_eq
  simp only [key192, Rust.bind_ok, Lib.Std.from_u128_eq, finRange_192, List.forM_eq_forM, List.forM_cons, List.forM_nil, idx_ok_192,
    Aes.Tests.from_u128_ofB, pure_ok]
  rfl
theorem expansion_256_eq : expansion_of_256_bit_key (B := t.Block) = Aes.Tests.expansion_of_256_bit_key t := by
  unfold expansion_of_256_bit_key Aes.Tests.expansion_of_256_bit_key Aes.Tests.check_expanded Aes.Tests.assert_eq
  simp only [key256, Rust.bind_ok, Lib.Std.from_u128_eq, finRange_256, List.forM_eq_forM, List.forM_cons, List.forM_nil, idx_ok_256,
    Aes.Tests.from_u128_ofB, pure_ok]
  rfl
theorem vectors128 : (AES_128_VECTORS : M (Vector (t.Block × t.Block) 5)) =
    .ok #v[blk t Aes.Tests.AES_128_VECTORS[0], blk t Aes.Tests.AES_128_VECTORS[1], blk t Aes.Tests.AES_128_VECTORS[2], blk t Aes.Tests.AES_128_VECTORS[3], blk t Aes.Tests.AES_128_VECTORS_4] := by
  unfold AES_128_VECTORS
  simp only [Lib.Std.from_u128_eq, Aes.Tests.from_u128_ofB, Rust.bind_ok]
  rfl
theorem aes_128_eq (h1 : (Aes.AesVec.pre : Option (Aes.Pre t.Block)) = none)
    (h2 : (Aes.AesVec.pre : Option (Aes.Pre t.X2)) = none)
    (h4 : (Aes.AesVec.pre : Option (Aes.Pre t.X4)) = none) :
    aes_128_test (B := t.Block) (X2 := t.X2) (X4 := t.X4) = Aes.Tests.aes_128_test t := by
  unfold aes_128_test Aes.Tests.aes_128_test Aes.Tests.aes_test_enc Aes.Tests.aes_test_dec Aes.Tests.assert_eq
  simp only [key128, vectors128, Rust.bind_ok, vec_blk, Lib.Std.Aes128Enc.from_eq, Lib.Std.Aes128Enc.decrypter_eq,
    Lib.Std.Aes128Enc.encrypt_block_eq h1, Lib.Std.Aes128Enc.encrypt_2_blocks_eq h2, Lib.Std.Aes128Enc.encrypt_4_blocks_eq h4,
    Lib.Std.Aes128Dec.decrypt_block_eq h1, Lib.Std.Aes128Dec.decrypt_2_blocks_eq h2, Lib.Std.Aes128Dec.decrypt_4_blocks_eq h4,
    Aes.Profile.decrypter_eq, Aes.Profile.encrypt_block_eq, Aes.Profile.encrypt_2_blocks_eq, Aes.Profile.encrypt_4_blocks_eq,
    Aes.Profile.decrypt_block_eq, Aes.Profile.decrypt_2_blocks_eq, Aes.Profile.decrypt_4_blocks_eq, bind_assoc, pure_ok, seq_ok]
  rfl
theorem vectors192 : (AES_192_VECTORS : M (Vector (t.Block × t.Block) 4)) =
    .ok #v[blk t Aes.Tests.AES_192_VECTORS[0], blk t Aes.Tests.AES_192_VECTORS[1], blk t Aes.Tests.AES_192_VECTORS[2], blk t Aes.Tests.AES_192_VECTORS[3]] := by
  unfold AES_192_VECTORS
  simp only [Lib.Std.from_u128_eq, Aes.Tests.from_u128_ofB, Rust.bind_ok]
  rfl
theorem aes_192_eq (h1 : (Aes.AesVec.pre : Option (Aes.Pre t.Block)) = none)
    (h2 : (Aes.AesVec.pre : Option (Aes.Pre t.X2)) = none)
    (h4 : (Aes.AesVec.pre : Option (Aes.Pre t.X4)) = none) :
    aes_192_test (B := t.Block) (X2 := t.X2) (X4 := t.X4) = Aes.Tests.aes_192_test t := by
  unfold aes_192_test Aes.Tests.aes_192_test Aes.Tests.aes_test_enc Aes.Tests.aes_test_dec Aes.Tests.assert_eq
  simp only [key192, vectors192, Rust.bind_ok, vec_blk, Lib.Std.Aes192Enc.from_eq, Lib.Std.Aes192Enc.decrypter_eq,
    Lib.Std.Aes192Enc.encrypt_block_eq h1, Lib.Std.Aes192Enc.encrypt_2_blocks_eq h2, Lib.Std.Aes192Enc.encrypt_4_blocks_eq h4,
    Lib.Std.Aes192Dec.decrypt_block_eq h1, Lib.Std.Aes192Dec.decrypt_2_blocks_eq h2, Lib.Std.Aes192Dec.decrypt_4_blocks_eq h4,
    Aes.Profile.decrypter_eq, Aes.Profile.encrypt_block_eq, Aes.Profile.encrypt_2_blocks_eq, Aes.Profile.encrypt_4_blocks_eq,
    Aes.Profile.decrypt_block_eq, Aes.Profile.decrypt_2_blocks_eq, Aes.Profile.decrypt_4_blocks_eq, bind_assoc, pure_ok, seq_ok]
  rfl
theorem vectors256 : (AES_256_VECTORS : M (Vector (t.Block × t.Block) 4)) =
    .ok #v[blk t Aes.Tests.AES_256_VECTORS[0], blk t Aes.Tests.AES_256_VECTORS[1], blk t Aes.Tests.AES_256_VECTORS[2], blk t Aes.Tests.AES_256_VECTORS[3]] := by
  unfold AES_256_VECTORS
  simp only [Lib.Std.from_u128_eq, Aes.Tests.from_u128_ofB, Rust.bind_ok]
  rfl
theorem aes_256_eq (h1 : (Aes.AesVec.pre : Option (Aes.Pre t.Block)) = none)
    (h2 : (Aes.AesVec.pre : Option (Aes.Pre t.X2)) = none)
    (h4 : (Aes.AesVec.pre : Option (Aes.Pre t.X4)) = none) :
    aes_256_test (B := t.Block) (X2 := t.X2) (X4 := t.X4) = Aes.Tests.aes_256_test t := by
  unfold aes_256_test Aes.Tests.aes_256_test Aes.Tests.aes_test_enc Aes.Tests.aes_test_dec Aes.Tests.assert_eq
  simp only [key256, vectors256, Rust.bind_ok, vec_blk, Lib.Std.Aes256Enc.from_eq, Lib.Std.Aes256Enc.decrypter_eq,
    Lib.Std.Aes256Enc.encrypt_block_eq h1, Lib.Std.Aes256Enc.encrypt_2_blocks_eq h2, Lib.Std.Aes256Enc.encrypt_4_blocks_eq h4,
    Lib.Std.Aes256Dec.decrypt_block_eq h1, Lib.Std.Aes256Dec.decrypt_2_blocks_eq h2, Lib.Std.Aes256Dec.decrypt_4_blocks_eq h4,
    Aes.Profile.decrypter_eq, Aes.Profile.encrypt_block_eq, Aes.Profile.encrypt_2_blocks_eq, Aes.Profile.encrypt_4_blocks_eq,
    Aes.Profile.decrypt_block_eq, Aes.Profile.decrypt_2_blocks_eq, Aes.Profile.decrypt_4_blocks_eq, bind_assoc, pure_ok, seq_ok]
  rfl

theorem suite_eq (h1 : (Aes.AesVec.pre : Option (Aes.Pre t.Block)) = none)
    (h2 : (Aes.AesVec.pre : Option (Aes.Pre t.X2)) = none)
    (h4 : (Aes.AesVec.pre : Option (Aes.Pre t.X4)) = none) :
    suite (B := t.Block) (X2 := t.X2) (X4 := t.X4) = Aes.Tests.suite t := by
  unfold suite Aes.Tests.suite
  rw [aesenc_eq, expansion_128_eq, expansion_192_eq, expansion_256_eq, aes_128_eq h1 h2 h4, aes_192_eq h1 h2 h4, aes_256_eq h1 h2 h4]
end Lib.Std.Tests

namespace Lib.Pre.Tests
variable {t : Target} [Cfg] [HasPre t.Block]

theorem key128 : AES_128_KEY = .ok Aes.Tests.AES_128_KEY := by decide +kernel
theorem key192 : AES_192_KEY = .ok Aes.Tests.AES_192_KEY := by decide +kernel
theorem key256 : AES_256_KEY = .ok Aes.Tests.AES_256_KEY := by decide +kernel

theorem aesenc_eq : aesenc_test (B := t.Block) = Aes.Tests.aesenc_test t := by
  unfold aesenc_test Aes.Tests.aesenc_test Aes.Tests.assert_eq
  simp only [Lib.Pre.from_u128_eq, pure_ok, seq_ok]
  rfl
theorem expansion_128_eq : expansion_of_128_bit_key (B := t.Block) = Aes.Tests.expansion_of_128_bit_key t := by
  unfold expansion_of_128_bit_key Aes.Tests.expansion_of_128_bit_key Aes.Tests.check_expanded Aes.Tests.assert_eq
  simp only [key128, Rust.bind_ok, Lib.Pre.from_u128_eq, finRange_128, List.forM_eq_forM, List.forM_cons, List.forM_nil, idx_ok_128,
    Aes.Tests.from_u128_ofB, pure_ok]
  rfl
theorem expansion_192_eq : expansion_of_192_bit_key (B := t.Block) = Aes.Tests.expansion_of_192_bit_key t := by
  unfold expansion_of_192_bit_key Aes.Tests.expansion_of_192_bit_key Aes.Tests.check_expanded Aes.Tests.assert_eq
  simp only [key192, Rust.bind_ok, Lib.Pre.from_u128_eq, finRange_192, List.forM_eq_forM, List.forM_cons, List.forM_nil, idx_ok_192,
    Aes.Tests.from_u128_ofB, pure_ok]
  rfl
theorem expansion_256_eq : expansion_of_256_bit_key (B := t.Block) = Aes.Tests.expansion_of_256_bit_key t := by
  unfold expansion_of_256_bit_key Aes.Tests.expansion_of_256_bit_key Aes.Tests.check_expanded Aes.Tests.assert_eq
  simp only [key256, Rust.bind_ok, Lib.Pre.from_u128_eq, finRange_256, List.forM_eq_forM, List.forM_cons, List.forM_nil, idx_ok_256,
    Aes.Tests.from_u128_ofB, pure_ok]
  rfl
theorem vectors128 : (AES_128_VECTORS : M (Vector (t.Block × t.Block) 5)) =
    .ok #v[blk t Aes.Tests.AES_128_VECTORS[0], blk t Aes.Tests.AES_128_VECTORS[1], blk t Aes.Tests.AES_128_VECTORS[2], blk t Aes.Tests.AES_128_VECTORS[3], blk t Aes.Tests.AES_128_VECTORS_4] := by
  unfold AES_128_VECTORS
  simp only [Lib.Pre.from_u128_eq, Aes.Tests.from_u128_ofB, Rust.bind_ok]
  rfl
theorem aes_128_eq (h1 : (Aes.AesVec.pre : Option (Aes.Pre t.Block)) = some ⟨HasPre.pre_enc, HasPre.pre_dec⟩)
    (h2 : (Aes.AesVec.pre : Option (Aes.Pre t.X2)) = some ⟨Lib.Pre.AesBlockX2.pre_enc, Lib.Pre.AesBlockX2.pre_dec⟩)
    (h4 : (Aes.AesVec.pre : Option (Aes.Pre t.X4)) = some ⟨Lib.Pre.AesBlockX4.pre_enc, Lib.Pre.AesBlockX4.pre_dec⟩) :
    aes_128_test (B := t.Block) (X2 := t.X2) (X4 := t.X4) = Aes.Tests.aes_128_test t := by
  unfold aes_128_test Aes.Tests.aes_128_test Aes.Tests.aes_test_enc Aes.Tests.aes_test_dec Aes.Tests.assert_eq
  simp only [key128, vectors128, Rust.bind_ok, vec_blk, Lib.Pre.Aes128Enc.from_eq, Lib.Pre.Aes128Enc.decrypter_eq,
    Lib.Pre.Aes128Enc.encrypt_block_eq h1, Lib.Pre.Aes128Enc.encrypt_2_blocks_eq h2, Lib.Pre.Aes128Enc.encrypt_4_blocks_eq h4,
    Lib.Pre.Aes128Dec.decrypt_block_eq h1, Lib.Pre.Aes128Dec.decrypt_2_blocks_eq h2, Lib.Pre.Aes128Dec.decrypt_4_blocks_eq h4,
    Aes.Profile.decrypter_eq, Aes.Profile.encrypt_block_eq, Aes.Profile.encrypt_2_blocks_eq, Aes.Profile.encrypt_4_blocks_eq,
    Aes.Profile.decrypt_block_eq, Aes.Profile.decrypt_2_blocks_eq, Aes.Profile.decrypt_4_blocks_eq, bind_assoc, pure_ok, seq_ok]
  rfl
theorem vectors192 : (AES_192_VECTORS : M (Vector (t.Block × t.Block) 4)) =
    .ok #v[blk t Aes.Tests.AES_192_VECTORS[0], blk t Aes.Tests.AES_192_VECTORS[1], blk t Aes.Tests.AES_192_VECTORS[2], blk t Aes.Tests.AES_192_VECTORS[3]] := by
  unfold AES_192_VECTORS
  simp only [Lib.Pre.from_u128_eq, Aes.Tests.from_u128_ofB, Rust.bind_ok]
  rfl
theorem aes_192_eq (h1 : (Aes.AesVec.pre : Option (Aes.Pre t.Block)) = some ⟨HasPre.pre_enc, HasPre.pre_dec⟩)
    (h2 : (Aes.AesVec.pre : Option (Aes.Pre t.X2)) = some ⟨Lib.Pre.AesBlockX2.pre_enc, Lib.Pre.AesBlockX2.pre_dec⟩)
    (h4 : (Aes.AesVec.pre : Option (Aes.Pre t.X4)) = some ⟨Lib.Pre.AesBlockX4.pre_enc, Lib.Pre.AesBlockX4.pre_dec⟩) :
    aes_192_test (B := t.Block) (X2 := t.X2) (X4 := t.X4) = Aes.Tests.aes_192_test t := by
  unfold aes_192_test Aes.Tests.aes_192_test Aes.Tests.aes_test_enc Aes.Tests.aes_test_dec Aes.Tests.assert_eq
  simp only [key192, vectors192, Rust.bind_ok, vec_blk, Lib.Pre.Aes192Enc.from_eq, Lib.Pre.Aes192Enc.decrypter_eq,
    Lib.Pre.Aes192Enc.encrypt_block_eq h1, Lib.Pre.Aes192Enc.encrypt_2_blocks_eq h2, Lib.Pre.Aes192Enc.encrypt_4_blocks_eq h4,
    Lib.Pre.Aes192Dec.decrypt_block_eq h1, Lib.Pre.Aes192Dec.decrypt_2_blocks_eq h2, Lib.Pre.Aes192Dec.decrypt_4_blocks_eq h4,
    Aes.Profile.decrypter_eq, Aes.Profile.encrypt_block_eq, Aes.Profile.encrypt_2_blocks_eq, Aes.Profile.encrypt_4_blocks_eq,
    Aes.Profile.decrypt_block_eq, Aes.Profile.decrypt_2_blocks_eq, Aes.Profile.decrypt_4_blocks_eq, bind_assoc, pure_ok, seq_ok]
  rfl
theorem vectors256 : (AES_256_VECTORS : M (Vector (t.Block × t.Block) 4)) =
    .ok #v[blk t Aes.Tests.AES_256_VECTORS[0], blk t Aes.Tests.AES_256_VECTORS[1], blk t Aes.Tests.AES_256_VECTORS[2], blk t Aes.Tests.AES_256_VECTORS[3]] := by
  unfold AES_256_VECTORS
  simp only [Lib.Pre.from_u128_eq, Aes.Tests.from_u128_ofB, Rust.bind_ok]
  rfl
theorem aes_256_eq (h1 : (Aes.AesVec.pre : Option (Aes.Pre t.Block)) = some ⟨HasPre.pre_enc, HasPre.pre_dec⟩)
    (h2 : (Aes.AesVec.pre : Option (Aes.Pre t.X2)) = some ⟨Lib.Pre.AesBlockX2.pre_enc, Lib.Pre.AesBlockX2.pre_dec⟩)
    (h4 : (Aes.AesVec.pre : Option (Aes.Pre t.X4)) = some ⟨Lib.Pre.AesBlockX4.pre_enc, Lib.Pre.AesBlockX4.pre_dec⟩) :
    aes_256_test (B := t.Block) (X2 := t.X2) (X4 := t.X4) = Aes.Tests.aes_256_test t := by
  unfold aes_256_test Aes.Tests.aes_256_test Aes.Tests.aes_test_enc Aes.Tests.aes_test_dec Aes.Tests.assert_eq
  simp only [key256, vectors256, Rust.bind_ok, vec_blk, Lib.Pre.Aes256Enc.from_eq, Lib.Pre.Aes256Enc.decrypter_eq,
    Lib.Pre.Aes256Enc.encrypt_block_eq h1, Lib.Pre.Aes256Enc.encrypt_2_blocks_eq h2, Lib.Pre.Aes256Enc.encrypt_4_blocks_eq h4,
    Lib.Pre.Aes256Dec.decrypt_block_eq h1, Lib.Pre.Aes256Dec.decrypt_2_blocks_eq h2, Lib.Pre.Aes256Dec.decrypt_4_blocks_eq h4,
    Aes.Profile.decrypter_eq, Aes.Profile.encrypt_block_eq, Aes.Profile.encrypt_2_blocks_eq, Aes.Profile.encrypt_4_blocks_eq,
    Aes.Profile.decrypt_block_eq, Aes.Profile.decrypt_2_blocks_eq, Aes.Profile.decrypt_4_blocks_eq, bind_assoc, pure_ok, seq_ok]
  rfl

theorem suite_eq (h1 : (Aes.AesVec.pre : Option (Aes.Pre t.Block)) = some ⟨HasPre.pre_enc, HasPre.pre_dec⟩)
    (h2 : (Aes.AesVec.pre : Option (Aes.Pre t.X2)) = some ⟨Lib.Pre.AesBlockX2.pre_enc, Lib.Pre.AesBlockX2.pre_dec⟩)
    (h4 : (Aes.AesVec.pre : Option (Aes.Pre t.X4)) = some ⟨Lib.Pre.AesBlockX4.pre_enc, Lib.Pre.AesBlockX4.pre_dec⟩) :
    suite (B := t.Block) (X2 := t.X2) (X4 := t.X4) = Aes.Tests.suite t := by
  unfold suite Aes.Tests.suite
  rw [aesenc_eq, expansion_128_eq, expansion_192_eq, expansion_256_eq, aes_128_eq h1 h2 h4, aes_192_eq h1 h2 h4, aes_256_eq h1 h2 h4]
end Lib.Pre.Tests

theorem Bitslice.Tests.suite_eq [Cfg] : Bitslice.Tests.suite = [Aes.Tests.test_subbytes Cfg.endian, Aes.Tests.test_invsubbytes Cfg.endian] := by
  unfold Bitslice.Tests.suite Bitslice.Tests.test_subbytes Bitslice.Tests.test_invsubbytes Aes.Tests.test_subbytes Aes.Tests.test_invsubbytes
  simp only [pure_ok, seq_ok, Bitslice.subbytes_eq, Bitslice.invsubbytes_eq]
  rfl

theorem tests_std (pf : Aes.Profile) (e : Endian) (t : Target) (h1 : (block pf e t).pre = none) (h2 : (blockX2 pf e t).pre = none)
    (h4 : (blockX4 pf e t).pre = none) :
    @Lib.Std.Tests.suite (cfg pf e t) _ _ _ (block pf e t) (blockX2 pf e t) (blockX4 pf e t) = Aes.Tests.suite t := by
  rw [block_eq, Aes.Profile.block_eq] at h1 ⊢
  rw [blockX2_eq, Aes.Profile.blockX2_eq] at h2 ⊢
  rw [blockX4_eq, Aes.Profile.blockX4_eq] at h4 ⊢
  exact @Lib.Std.Tests.suite_eq t (cfg pf e t) h1 h2 h4

/-- On every target, for every build profile and byte order of the build: the tests printed from the source text are the model's. -/
theorem tests_eq (pf : Aes.Profile) (e : Endian) (t : Target) : tests pf e t = Aes.Tests.all t := by
  unfold Aes.Tests.all Aes.Tests.unit_tests
  cases t with
  | table => exact (tests_std pf e .table rfl rfl rfl).trans (List.append_nil _).symm
  | bitslice e' =>
    exact congr (congrArg HAppend.hAppend (tests_std pf e (.bitslice e') rfl rfl rfl)) (@Bitslice.Tests.suite_eq (cfg pf e (.bitslice e')))
  | x86 => exact (tests_std pf e .x86 rfl rfl rfl).trans (List.append_nil _).symm
  | x86Vaes => exact (tests_std pf e .x86Vaes rfl rfl rfl).trans (List.append_nil _).symm
  | x86Vaes512 => exact (tests_std pf e .x86Vaes512 rfl rfl rfl).trans (List.append_nil _).symm
  | riscv64 => exact (tests_std pf e .riscv64 rfl rfl rfl).trans (List.append_nil _).symm
  | arm b =>
    refine Eq.trans ?_ (List.append_nil _).symm
    change @Lib.Pre.Tests.suite (cfg pf e (.arm b)) _ _ _ (block pf e (.arm b)) (blockX2 pf e (.arm b)) (blockX4 pf e (.arm b)) (armPre pf e b) = _
    rw [block_eq, Aes.Profile.block_eq, blockX2_eq, Aes.Profile.blockX2_eq, blockX4_eq, Aes.Profile.blockX4_eq]
    exact @Lib.Pre.Tests.suite_eq (.arm b) (cfg pf e (.arm b)) (armPre pf e b) rfl rfl rfl
  | riscv32 =>
    refine Eq.trans ?_ (List.append_nil _).symm
    change @Lib.Pre.Tests.suite (cfg pf e .riscv32) _ _ _ (block pf e .riscv32) (blockX2 pf e .riscv32) (blockX4 pf e .riscv32) (riscv32Pre pf e) = _
    rw [block_eq, Aes.Profile.block_eq, blockX2_eq, Aes.Profile.blockX2_eq, blockX4_eq, Aes.Profile.blockX4_eq]
    exact @Lib.Pre.Tests.suite_eq .riscv32 (cfg pf e .riscv32) (riscv32Pre pf e) rfl rfl rfl
end RustSrc
