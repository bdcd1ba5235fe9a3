import Verif.Proofs.GenCrate
import Verif.Proofs.GenLeakLib
import Verif.Proofs.GenLeakTable
import Verif.Proofs.GenLeakBitslice
import Verif.Proofs.GenLeakX86
import Verif.Proofs.GenLeakArm
import Verif.Proofs.GenLeakRiscv64
import Verif.Proofs.GenLeakRiscv32
import Verif.Proofs.GenLeakDefault
import Verif.Proofs.GenLeakNi
import Verif.Gen.LeakCrate
/-
The leakage of the crate assembled from the generated functions (Verif/Gen/LeakCrate.lean) is that of the hand-written model, on
every target and in every build profile.
-/
set_option linter.unusedSectionVars false
set_option linter.unusedVariables false
namespace RustSrc.Leak
open Rust Aes Aes.Client Aes.Leak Aes.Target

section
variable (t : Target) [Aes.AesBlock t.Block] [b2 : Aes.AesBlockX2 t.Block t.X2] [b4 : Aes.AesBlockX4 t.Block t.X2 t.X4]
  [l1 : LBlock t.Block] [l2 : LVec t.X2 32] [l4 : LVec t.X4 64]

/-- The calls in terms of the functions of Verif/Model/LeakLib.lean. -/
def apiOf : LApi t.Vec (fun k => Aes.AesEnc t.Block k.rounds) (fun k => Aes.AesDec t.Block k.rounds) where
  new := fun
    | .x1 => l1.new
    | .x2 => l2.new
    | .x4 => l4.new
  from_bytes := fun
    | .x1 => l1.from_bytes
    | .x2 => l2.from_bytes
    | .x4 => l4.from_bytes
  from_ref := fun
    | .x1 => l1.from_bytes
    | .x2 => l2.from_bytes
    | .x4 => l4.from_bytes
  try_from := fun
    | .x1 => Aes.Leak.try_from (T := t.Block)
    | .x2 => Aes.Leak.try_from (T := t.X2)
    | .x4 => Aes.Leak.try_from (T := t.X4)
  zero := fun
    | .x1 => l1.zero
    | .x2 => l2.zero
    | .x4 => l4.zero
  default_ := fun
    | .x1 => l1.zero
    | .x2 => l2.zero
    | .x4 => l4.zero
  into_bytes := fun
    | .x1 => Aes.Leak.into_bytes (T := t.Block)
    | .x2 => Aes.Leak.into_bytes (T := t.X2)
    | .x4 => Aes.Leak.into_bytes (T := t.X4)
  store_to := fun
    | .x1 => l1.store_to
    | .x2 => l2.store_to
    | .x4 => l4.store_to
  is_zero := fun
    | .x1 => l1.is_zero
    | .x2 => l2.is_zero
    | .x4 => l4.is_zero
  eq := fun
    | .x1 => l1.eq
    | .x2 => l2.eq
    | .x4 => l4.eq
  bin := fun
    | .x1 => binOf (T := t.Block)
    | .x2 => binOf (T := t.X2)
    | .x4 => binOf (T := t.X4)
  assign := fun
    | .x1 => assignOf (T := t.Block)
    | .x2 => assignOf (T := t.X2)
    | .x4 => assignOf (T := t.X4)
  not := fun
    | .x1 => l1.not
    | .x2 => l2.not
    | .x4 => l4.not
  chain_enc := fun
    | .x1 => Aes.Leak.chain_enc (T := t.Block)
    | .x2 => Aes.Leak.chain_enc (T := t.X2)
    | .x4 => Aes.Leak.chain_enc (T := t.X4)
  chain_dec := fun
    | .x1 => Aes.Leak.chain_dec (T := t.Block)
    | .x2 => Aes.Leak.chain_dec (T := t.X2)
    | .x4 => Aes.Leak.chain_dec (T := t.X4)
  mc := l1.mc
  imc := l1.imc
  from_u128 := Aes.Leak.from_u128 (B := t.Block)
  into_u128 := Aes.Leak.into_u128 (B := t.Block)
  encFrom := encFromOf t.Block
  decFrom := decFromOf t.Block
  decrypter := fun _ => Aes.Leak.decrypter
  encrypter := fun _ => Aes.Leak.encrypter
  encrypt := fun _ w e => match w with
    | .x1 => Aes.Leak.encrypt (T := t.Block) id e
    | .x2 => Aes.Leak.encrypt (T := t.X2) (AesBlockX2.from_block (T := t.X2)) e
    | .x4 => Aes.Leak.encrypt (T := t.X4) (AesBlockX4.from_block (T := t.X4)) e
  decrypt := fun _ w e => match w with
    | .x1 => Aes.Leak.decrypt (T := t.Block) id e
    | .x2 => Aes.Leak.decrypt (T := t.X2) (AesBlockX2.from_block (T := t.X2)) e
    | .x4 => Aes.Leak.decrypt (T := t.X4) (AesBlockX4.from_block (T := t.X4)) e

theorem apiStd_eq [Cfg] (h1 : l1.pre = none) (h2 : l2.pre = none) (h4 : l4.pre = none) : apiStd t = apiOf t := by
  unfold apiStd apiOf
  congr 1
  case e_bin => funext w o; cases w <;> cases o <;> rfl
  case e_assign => funext w o; cases w <;> cases o <;> rfl
  case e_try_from =>
    funext w; cases w
    · exact Lib.Std.AesBlock.try_from_eq
    · exact Lib.Std.AesBlockX2.try_from_eq
    · exact Lib.Std.AesBlockX4.try_from_eq
  case e_chain_enc =>
    funext w; cases w
    · exact Lib.Std.AesBlock.chain_enc_eq h1
    · exact Lib.Std.AesBlockX2.chain_enc_eq h2
    · exact Lib.Std.AesBlockX4.chain_enc_eq h4
  case e_chain_dec =>
    funext w; cases w
    · exact Lib.Std.AesBlock.chain_dec_eq h1
    · exact Lib.Std.AesBlockX2.chain_dec_eq h2
    · exact Lib.Std.AesBlockX4.chain_dec_eq h4
  case e_decrypter =>
    funext k; cases k
    · exact Lib.Std.Aes128Enc.decrypter_eq
    · exact Lib.Std.Aes192Enc.decrypter_eq
    · exact Lib.Std.Aes256Enc.decrypter_eq
  case e_encrypter =>
    funext k; cases k
    · exact Lib.Std.Aes128Dec.encrypter_eq
    · exact Lib.Std.Aes192Dec.encrypter_eq
    · exact Lib.Std.Aes256Dec.encrypter_eq
  case e_encrypt =>
    funext k w; cases k <;> cases w
    · exact Lib.Std.Aes128Enc.encrypt_block_eq h1
    · exact Lib.Std.Aes128Enc.encrypt_2_blocks_eq h2
    · exact Lib.Std.Aes128Enc.encrypt_4_blocks_eq h4
    · exact Lib.Std.Aes192Enc.encrypt_block_eq h1
    · exact Lib.Std.Aes192Enc.encrypt_2_blocks_eq h2
    · exact Lib.Std.Aes192Enc.encrypt_4_blocks_eq h4
    · exact Lib.Std.Aes256Enc.encrypt_block_eq h1
    · exact Lib.Std.Aes256Enc.encrypt_2_blocks_eq h2
    · exact Lib.Std.Aes256Enc.encrypt_4_blocks_eq h4
  case e_decrypt =>
    funext k w; cases k <;> cases w
    · exact Lib.Std.Aes128Dec.decrypt_block_eq h1
    · exact Lib.Std.Aes128Dec.decrypt_2_blocks_eq h2
    · exact Lib.Std.Aes128Dec.decrypt_4_blocks_eq h4
    · exact Lib.Std.Aes192Dec.decrypt_block_eq h1
    · exact Lib.Std.Aes192Dec.decrypt_2_blocks_eq h2
    · exact Lib.Std.Aes192Dec.decrypt_4_blocks_eq h4
    · exact Lib.Std.Aes256Dec.decrypt_block_eq h1
    · exact Lib.Std.Aes256Dec.decrypt_2_blocks_eq h2
    · exact Lib.Std.Aes256Dec.decrypt_4_blocks_eq h4

theorem apiPre_eq [Cfg] [LHasPre t.Block] (h1 : l1.pre = some ⟨LHasPre.pre_enc, LHasPre.pre_dec⟩)
    (h2 : l2.pre = some ⟨Lib.Pre.AesBlockX2.pre_enc (B := t.Block), Lib.Pre.AesBlockX2.pre_dec (B := t.Block)⟩)
    (h4 : l4.pre = some ⟨Lib.Pre.AesBlockX4.pre_enc (B := t.Block) (X2 := t.X2), Lib.Pre.AesBlockX4.pre_dec (B := t.Block) (X2 := t.X2)⟩) : apiPre t = apiOf t := by
  unfold apiPre apiOf
  congr 1
  case e_bin => funext w o; cases w <;> cases o <;> rfl
  case e_assign => funext w o; cases w <;> cases o <;> rfl
  case e_try_from =>
    funext w; cases w
    · exact Lib.Pre.AesBlock.try_from_eq
    · exact Lib.Pre.AesBlockX2.try_from_eq
    · exact Lib.Pre.AesBlockX4.try_from_eq
  case e_chain_enc =>
    funext w; cases w
    · exact Lib.Pre.AesBlock.chain_enc_eq h1
    · exact Lib.Pre.AesBlockX2.chain_enc_eq h2
    · exact Lib.Pre.AesBlockX4.chain_enc_eq h4
  case e_chain_dec =>
    funext w; cases w
    · exact Lib.Pre.AesBlock.chain_dec_eq h1
    · exact Lib.Pre.AesBlockX2.chain_dec_eq h2
    · exact Lib.Pre.AesBlockX4.chain_dec_eq h4
  case e_decrypter =>
    funext k; cases k
    · exact Lib.Pre.Aes128Enc.decrypter_eq
    · exact Lib.Pre.Aes192Enc.decrypter_eq
    · exact Lib.Pre.Aes256Enc.decrypter_eq
  case e_encrypter =>
    funext k; cases k
    · exact Lib.Pre.Aes128Dec.encrypter_eq
    · exact Lib.Pre.Aes192Dec.encrypter_eq
    · exact Lib.Pre.Aes256Dec.encrypter_eq
  case e_encrypt =>
    funext k w; cases k <;> cases w
    · exact Lib.Pre.Aes128Enc.encrypt_block_eq h1
    · exact Lib.Pre.Aes128Enc.encrypt_2_blocks_eq h2
    · exact Lib.Pre.Aes128Enc.encrypt_4_blocks_eq h4
    · exact Lib.Pre.Aes192Enc.encrypt_block_eq h1
    · exact Lib.Pre.Aes192Enc.encrypt_2_blocks_eq h2
    · exact Lib.Pre.Aes192Enc.encrypt_4_blocks_eq h4
    · exact Lib.Pre.Aes256Enc.encrypt_block_eq h1
    · exact Lib.Pre.Aes256Enc.encrypt_2_blocks_eq h2
    · exact Lib.Pre.Aes256Enc.encrypt_4_blocks_eq h4
  case e_decrypt =>
    funext k w; cases k <;> cases w
    · exact Lib.Pre.Aes128Dec.decrypt_block_eq h1
    · exact Lib.Pre.Aes128Dec.decrypt_2_blocks_eq h2
    · exact Lib.Pre.Aes128Dec.decrypt_4_blocks_eq h4
    · exact Lib.Pre.Aes192Dec.decrypt_block_eq h1
    · exact Lib.Pre.Aes192Dec.decrypt_2_blocks_eq h2
    · exact Lib.Pre.Aes192Dec.decrypt_4_blocks_eq h4
    · exact Lib.Pre.Aes256Dec.decrypt_block_eq h1
    · exact Lib.Pre.Aes256Dec.decrypt_2_blocks_eq h2
    · exact Lib.Pre.Aes256Dec.decrypt_4_blocks_eq h4

end

/-- The hand-written model is over these calls. -/
theorem step_eq (t : Target) (s : Store (Client.crate t)) (c : Call) :
    Aes.Leak.step t s c = stepWith (Client.crate t) (apiOf t) s c := by
  cases c with
  | new w => cases w <;> rfl
  | from_bytes w => cases w <;> rfl
  | from_ref w => cases w <;> rfl
  | try_from w => cases w <;> rfl
  | zero w => cases w <;> rfl
  | default_ w => cases w <;> rfl
  | into_bytes w => cases w <;> rfl
  | store_to w => cases w <;> rfl
  | is_zero w => cases w <;> rfl
  | eq w => cases w <;> rfl
  | bin w => cases w <;> rfl
  | assign w => cases w <;> rfl
  | not w => cases w <;> rfl
  | chain_enc w => cases w <;> rfl
  | chain_dec w => cases w <;> rfl
  | encrypt k w => cases w <;> rfl
  | decrypt k w => cases w <;> rfl
  | _ => rfl

theorem run_eq (t : Target) (client : Client) (n : Nat) :
    Aes.Leak.run t client n = runWith (Client.crate t) (apiOf t) client n := by
  induction n with
  | zero => rfl
  | succ n ih =>
    show (Aes.Leak.run t client n >>= _) = (runWith (Client.crate t) (apiOf t) client n >>= _)
    rw [ih]
    refine congrArg _ (funext fun r => ?_)
    cases client r.1 with
    | none => rfl
    | some c => show (Aes.Leak.step t r.2 c >>= _) = (stepWith (Client.crate t) (apiOf t) r.2 c >>= _); rw [step_eq]

theorem leakageWith_congr {I J : Impl} (h : I = J) (A : LApi I.V I.E I.D) (B : LApi J.V J.E J.D) (hAB : HEq A B) (client : Client)
    (n : Nat) : (runWith I A client n).trace = (runWith J B client n).trace := by
  subst h
  rw [eq_of_heq hAB]

/-! ### The modules -/

theorem block_eq (pf : Aes.Profile) (e : Endian) (t : Target) : block pf e t = (inferInstance : LBlock t.Block) := by
  cases t with
  | table => exact @Table.block_eq (cfg pf e .table)
  | bitslice e' => exact @Bitslice.block_eq (cfg pf e (.bitslice e'))
  | x86 => exact @X86.block_eq (cfg pf e .x86)
  | x86Vaes => exact @X86.block_eq (cfg pf e .x86Vaes)
  | x86Vaes512 => exact @X86.block_eq (cfg pf e .x86Vaes512)
  | arm b => exact @Arm.block_eq (cfg pf e (.arm b)) rfl
  | riscv64 => exact @Riscv64.block_eq (cfg pf e .riscv64) rfl
  | riscv32 => exact @Riscv32.block_eq (cfg pf e .riscv32) rfl

@[reducible] def hand2 {B : Type} (b : LBlock B) : LVec (Aes.DefaultX2.X2 B) 32 := inferInstance
@[reducible] def hand4 {X2 : Type} (b : LVec X2 32) : LVec (Aes.DefaultX4.X4 X2) 64 := inferInstance

/-- aesdefault_x2 where src/lib.rs adds nothing. -/
theorem default2 {B : Type} [Cfg] (b b' : LBlock B) (h : b = b') (hp : b'.pre = none) :
    @DefaultX2.vec _ B b = hand2 b' := by
  subst h
  refine (@DefaultX2.vec_eq _ B b none).trans ?_
  have : (none : Option (LPre (Aes.DefaultX2.X2 B))) = (hand2 b).pre := by
    show none = b.pre.map _
    rw [hp]; rfl
  rw [this]
/-- aesdefault_x4 where src/lib.rs adds nothing. -/
theorem default4 {X2 : Type} [Cfg] (b b' : LVec X2 32) (h : b = b') (hp : b'.pre = none) :
    @DefaultX4.vec _ X2 b = hand4 b' := by
  subst h
  refine (@DefaultX4.vec_eq _ X2 b none).trans ?_
  have : (none : Option (LPre (Aes.DefaultX4.X4 X2))) = (hand4 b).pre := by
    show none = b.pre.map _
    rw [hp]; rfl
  rw [this]

/-- aesdefault_x2 with the methods of src/lib.rs:348-366. -/
theorem withPre2_eq {B : Type} [Cfg] [Aes.AesBlock B] [v : Aes.AesBlockX2 B (Aes.DefaultX2.X2 B)] [LHasPre B]
    (hv : v.to_pair = (fun x => (x.f0, x.f1)) ∧ v.from_pair = (fun p => ⟨p.1, p.2⟩)) (b b' : LBlock B) (h : b = b')
    (hp : b.pre = some ⟨LHasPre.pre_enc, LHasPre.pre_dec⟩) :
    withPre2 (B := B) (@DefaultX2.vec _ B b) = hand2 b' := by
  subst h
  have h2 : (hand2 b).pre = some ⟨Lib.Pre.AesBlockX2.pre_enc (B := B), Lib.Pre.AesBlockX2.pre_dec (B := B)⟩ := by
    show b.pre.map _ = _
    rw [hp]
    unfold Lib.Pre.AesBlockX2.pre_enc Lib.Pre.AesBlockX2.pre_dec
    rw [hv.1, hv.2]
    rfl
  refine (@DefaultX2.vec_eq _ B b _).trans ?_
  rw [← h2]

/-- aesdefault_x4 with the methods of src/lib.rs:348-366. -/
theorem withPre4_eq {B X2 : Type} [Cfg] [Aes.AesBlock B] [Aes.AesBlockX2 B X2] [v : Aes.AesBlockX4 B X2 (Aes.DefaultX4.X4 X2)]
    [LHasPre B] (hv : v.to_x2_pair = (fun x => (x.f0, x.f1)) ∧ v.from_x2_pair = (fun p => ⟨p.1, p.2⟩)) (b b' : LVec X2 32)
    (h : b = b') (hp : b.pre = some ⟨Lib.Pre.AesBlockX2.pre_enc (B := B), Lib.Pre.AesBlockX2.pre_dec (B := B)⟩) :
    withPre4 (B := B) (X2 := X2) (@DefaultX4.vec _ X2 b) = hand4 b' := by
  subst h
  have h2 : (hand4 b).pre = some ⟨Lib.Pre.AesBlockX4.pre_enc (B := B) (X2 := X2), Lib.Pre.AesBlockX4.pre_dec (B := B) (X2 := X2)⟩ := by
    show b.pre.map _ = _
    rw [hp]
    unfold Lib.Pre.AesBlockX4.pre_enc Lib.Pre.AesBlockX4.pre_dec
    rw [hv.1, hv.2]
    rfl
  refine (@DefaultX4.vec_eq _ X2 b _).trans ?_
  rw [← h2]

theorem blockX2_eq (pf : Aes.Profile) (e : Endian) (t : Target) : blockX2 pf e t = (inferInstance : LVec t.X2 32) := by
  cases t with
  | table => exact @default2 _ (cfg pf e .table) _ _ (block_eq pf e .table) rfl
  | bitslice e' => exact @default2 _ (cfg pf e (.bitslice e')) _ _ (block_eq pf e (.bitslice e')) rfl
  | x86 => exact @default2 _ (cfg pf e .x86) _ _ (block_eq pf e .x86) rfl
  | x86Vaes => exact @NiX2.vec_eq (cfg pf e .x86Vaes)
  | x86Vaes512 => exact @NiX2.vec_eq (cfg pf e .x86Vaes512)
  | arm b =>
    exact @withPre2_eq _ (cfg pf e (.arm b)) (RustSrc.block pf e (.arm b)) (RustSrc.blockX2 pf e (.arm b)) (armPre pf e b) ⟨rfl, rfl⟩
      _ _ (block_eq pf e (.arm b)) rfl
  | riscv64 => exact @default2 _ (cfg pf e .riscv64) _ _ (block_eq pf e .riscv64) rfl
  | riscv32 =>
    exact @withPre2_eq _ (cfg pf e .riscv32) (RustSrc.block pf e .riscv32) (RustSrc.blockX2 pf e .riscv32) (riscv32Pre pf e) ⟨rfl, rfl⟩
      _ _ (block_eq pf e .riscv32) rfl

theorem blockX4_eq (pf : Aes.Profile) (e : Endian) (t : Target) : blockX4 pf e t = (inferInstance : LVec t.X4 64) := by
  cases t with
  | table => exact @default4 _ (cfg pf e .table) _ _ (blockX2_eq pf e .table) rfl
  | bitslice e' => exact @default4 _ (cfg pf e (.bitslice e')) _ _ (blockX2_eq pf e (.bitslice e')) rfl
  | x86 => exact @default4 _ (cfg pf e .x86) _ _ (blockX2_eq pf e .x86) rfl
  | x86Vaes => exact @default4 _ (cfg pf e .x86Vaes) _ _ (blockX2_eq pf e .x86Vaes) rfl
  | x86Vaes512 => exact @NiX4.vec_eq (cfg pf e .x86Vaes512)
  | arm b =>
    exact @withPre4_eq _ _ (cfg pf e (.arm b)) (RustSrc.block pf e (.arm b)) (RustSrc.blockX2 pf e (.arm b))
      (RustSrc.blockX4 pf e (.arm b)) (armPre pf e b) ⟨rfl, rfl⟩ _ _ (blockX2_eq pf e (.arm b)) rfl
  | riscv64 => exact @default4 _ (cfg pf e .riscv64) _ _ (blockX2_eq pf e .riscv64) rfl
  | riscv32 =>
    exact @withPre4_eq _ _ (cfg pf e .riscv32) (RustSrc.block pf e .riscv32) (RustSrc.blockX2 pf e .riscv32)
      (RustSrc.blockX4 pf e .riscv32) (riscv32Pre pf e) ⟨rfl, rfl⟩ _ _ (blockX2_eq pf e .riscv32) rfl

/-- The calls depend on the modules through their functions with traces, and on how a block becomes a wide one. -/
theorem apiOf_congr (t : Target) (v2 v2' : Aes.AesBlockX2 t.Block t.X2) (v4 v4' : Aes.AesBlockX4 t.Block t.X2 t.X4)
    (l1 l1' : LBlock t.Block) (l2 l2' : LVec t.X2 32) (l4 l4' : LVec t.X4 64) (h2 : v2.from_block = v2'.from_block)
    (h4 : v4.from_block = v4'.from_block) (e1 : l1 = l1') (e2 : l2 = l2') (e4 : l4 = l4') :
    @apiOf t v2 v4 l1 l2 l4 = @apiOf t v2' v4' l1' l2' l4' := by
  subst e1 e2 e4
  unfold apiOf
  rw [h2, h4]

/-- The calls over the generated modules are those over the hand-written ones. -/
theorem apiOf_modules (pf : Aes.Profile) (e : Endian) (t : Target) :
    @apiOf t (RustSrc.blockX2 pf e t) (RustSrc.blockX4 pf e t) (block pf e t) (blockX2 pf e t) (blockX4 pf e t) = apiOf t := by
  refine apiOf_congr t _ _ _ _ _ _ _ _ _ _ ?_ ?_ (block_eq pf e t) (blockX2_eq pf e t) (blockX4_eq pf e t)
  · cases t <;> rfl
  · cases t <;> rfl

theorem std (pf : Aes.Profile) (e : Endian) (t : Target) (h1 : (block pf e t).pre = none) (h2 : (blockX2 pf e t).pre = none)
    (h4 : (blockX4 pf e t).pre = none) :
    @apiStd t (cfg pf e t) (RustSrc.block pf e t) (RustSrc.blockX2 pf e t) (RustSrc.blockX4 pf e t) (block pf e t)
      (blockX2 pf e t) (blockX4 pf e t) = apiOf t :=
  (@apiStd_eq t (RustSrc.block pf e t) (RustSrc.blockX2 pf e t) (RustSrc.blockX4 pf e t) (block pf e t) (blockX2 pf e t)
    (blockX4 pf e t) (cfg pf e t) h1 h2 h4).trans (apiOf_modules pf e t)

theorem crate_hand (pf : Aes.Profile) (e : Endian) (t : Target) : RustSrc.crate pf e t = Client.crate t :=
  (RustSrc.crate_eq pf e t).trans (Aes.Profile.crate_eq pf t)

/-- The calls printed from the source text have the traces of the hand-written model. -/
theorem api_heq (pf : Aes.Profile) (e : Endian) (t : Target) :
    @HEq (LApi (RustSrc.crate pf e t).V (RustSrc.crate pf e t).E (RustSrc.crate pf e t).D) (api pf e t)
      (LApi (Client.crate t).V (Client.crate t).E (Client.crate t).D) (apiOf t) := by
  cases t with
  | table => exact heq_of_eq (std pf e .table rfl rfl rfl)
  | bitslice e' => exact heq_of_eq (std pf e (.bitslice e') rfl rfl rfl)
  | x86 => exact heq_of_eq (std pf e .x86 rfl rfl rfl)
  | x86Vaes => exact heq_of_eq (std pf e .x86Vaes rfl rfl rfl)
  | x86Vaes512 => exact heq_of_eq (std pf e .x86Vaes512 rfl rfl rfl)
  | riscv64 => exact heq_of_eq (std pf e .riscv64 rfl rfl rfl)
  | arm b =>
    exact heq_of_eq ((@apiPre_eq (.arm b) (RustSrc.block pf e (.arm b)) (RustSrc.blockX2 pf e (.arm b))
      (RustSrc.blockX4 pf e (.arm b)) (block pf e (.arm b)) (blockX2 pf e (.arm b)) (blockX4 pf e (.arm b)) (cfg pf e (.arm b))
      (armPre pf e b) rfl rfl rfl).trans (apiOf_modules pf e (.arm b)))
  | riscv32 =>
    exact heq_of_eq ((@apiPre_eq .riscv32 (RustSrc.block pf e .riscv32) (RustSrc.blockX2 pf e .riscv32)
      (RustSrc.blockX4 pf e .riscv32) (block pf e .riscv32) (blockX2 pf e .riscv32) (blockX4 pf e .riscv32) (cfg pf e .riscv32)
      (riscv32Pre pf e) rfl rfl rfl).trans (apiOf_modules pf e .riscv32))

/-- What an observer learns from the source text is what the hand-written model says. -/
theorem leakage_eq (pf : Aes.Profile) (e : Endian) (t : Target) (client : Client) (n : Nat) :
    leakage pf e t client n = Aes.Leak.leakage t client n :=
  (leakageWith_congr (crate_hand pf e t) _ _ (api_heq pf e t) client n).trans
    (congrArg L.trace (run_eq t client n)).symm

theorem outWith_congr {I J : Impl} (h : I = J) (A : LApi I.V I.E I.D) (B : LApi J.V J.E J.D) (hAB : HEq A B) (client : Client)
    (n : Nat) : (runWith I A client n).out.map (·.1) = (runWith J B client n).out.map (·.1) := by
  subst h
  rw [eq_of_heq hAB]

/-- Erasing the trace gives the observations of the hand-written model. -/
theorem out_eq (pf : Aes.Profile) (e : Endian) (t : Target) (client : Client) (n : Nat) :
    (run pf e t client n).out.map (·.1) = (Aes.Leak.run t client n).out.map (·.1) :=
  (outWith_congr (crate_hand pf e t) _ _ (api_heq pf e t) client n).trans
    (congrArg (fun r => r.out.map (·.1)) (run_eq t client n)).symm

end RustSrc.Leak
