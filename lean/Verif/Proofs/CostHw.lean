import Verif.Proofs.Cost
/-! The work of the hardware modules. -/
namespace Aes.Leak
open Rust AesSpec

namespace X86
open Aes.X86 (Block)
theorem costs_from_bytes (v : Vector U8 16) : Costs (X86.from_bytes v) 0 := by unfold X86.from_bytes; cost_rules
theorem costs_mix (v) : Costs (X86.mix v) 4 := by unfold X86.mix; cost_rules
theorem costs_assist (i r v) : Costs (X86.assist i r v) 2 := by unfold X86.assist; cost_rules
theorem costs_keyexp_128 (r v) : Costs (X86.keyexp_128 r v) 7 := by unfold X86.keyexp_128; cost_rules [costs_mix, costs_assist]
theorem costs_fwd (r v w) : Costs (X86.fwd r v w) 11 := by unfold X86.fwd; cost_rules [costs_mix, costs_assist]
theorem costs_keyexp_192 (r v w) : Costs (X86.keyexp_192 r v w) 24 := by unfold X86.keyexp_192; cost_rules [costs_fwd]
theorem costs_keyexp_256_1 (r v w) : Costs (X86.keyexp_256_1 r v w) 7 := by unfold X86.keyexp_256_1; cost_rules [costs_mix, costs_assist]
theorem costs_keyexp_256_2 (v w) : Costs (X86.keyexp_256_2 v w) 7 := by unfold X86.keyexp_256_2; cost_rules [costs_mix, costs_assist]
theorem costs_keygen_128 (k) : Costs (X86.keygen_128 k) 70 := by unfold X86.keygen_128; cost_rules [costs_keyexp_128, costs_from_bytes]
theorem costs_onTo_copy (b : List U8) (k : Nat) {m : L (List U8)} (h : Costs m 0) : Costs (onTo b k fun s => do copyFromSlice s (← m)) 0 :=
  costs_onTo _ _ fun _ => costs_bind0 h fun _ => costs_copy _ _
theorem costs_onFrom_fill (b : List U8) (k : Nat) : Costs (onFrom b k fun s => ⟨writes s.length, .ok (List.replicate s.length 0)⟩) 0 :=
  costs_onFrom _ _ fun _ => costs_writes _ _
theorem costs_keygen_192 (k) : Costs (X86.keygen_192 k) 96 := by
  unfold X86.keygen_192; cost_rules [costs_keyexp_192, costs_from_bytes, costs_onTo_copy, costs_onFrom_fill]
theorem costs_keygen_256 (k) : Costs (X86.keygen_256 k) 91 := by unfold X86.keygen_256; cost_rules [costs_keyexp_256_1, costs_keyexp_256_2, costs_from_bytes]
theorem cost (t : Target) (ht : t = .x86 ∨ t = .x86Vaes ∨ t = .x86Vaes512) : CostBlock Block 1 (blockPrice t) none 2 1 70 96 91 := by
  have : blockPrice t = fun _ => 1 := by rcases ht with rfl | rfl | rfl <;> rfl
  rw [this]
  exact {
    vec :=
      { new := fun b => costs_emit _ _
        bitand := fun x y => costs_ins _ _
        bitor := fun x y => costs_ins _ _
        bitxor := fun x y => costs_ins _ _
        not := fun x => costs_ins _ _
        enc := fun x y => costs_ins _ _
        dec := fun x y => costs_ins _ _
        enc_last := fun x y => costs_ins _ _
        dec_last := fun x y => costs_ins _ _
        pre_none := fun _ => rfl
        pre_some := fun _ h => by cases h }
    zero := costs_pure _
    mc := fun x => costs_bind 1 (costs_ins _ _) fun _ => costs_ins _ _
    imc := fun x => costs_ins _ _
    keygen_128 := costs_keygen_128
    keygen_192 := costs_keygen_192
    keygen_256 := costs_keygen_256 }
end X86

theorem NiX2.cost : CostVec Aes.NiX2.X2 1 (fun _ => 1) none where
  new b := costs_emit _ _
  bitand x y := costs_ins _ _
  bitor x y := costs_ins _ _
  bitxor x y := costs_ins _ _
  not x := costs_ins _ _
  enc x y := costs_ins _ _
  dec x y := costs_ins _ _
  enc_last x y := costs_ins _ _
  dec_last x y := costs_ins _ _
  pre_none _ := rfl
  pre_some _ h := by cases h
theorem NiX4.cost : CostVec Aes.NiX4.X4 1 (fun _ => 1) none where
  new b := costs_emit _ _
  bitand x y := costs_ins _ _
  bitor x y := costs_ins _ _
  bitxor x y := costs_ins _ _
  not x := costs_ins _ _
  enc x y := costs_ins _ _
  dec x y := costs_ins _ _
  enc_last x y := costs_ins _ _
  dec_last x y := costs_ins _ _
  pre_none _ := rfl
  pre_some _ h := by cases h

namespace Arm
open Aes.Arm (Block)
variable {is32 : Bool}
theorem costs_bitxor (x y : Block is32) : Costs (Arm.bitxor x y) 1 := costs_ins _ _
theorem costs_aese (x y : Block is32) : Costs (Arm.aese x y) 1 := costs_ins _ _
theorem costs_aesd (x y : Block is32) : Costs (Arm.aesd x y) 1 := costs_ins _ _
theorem costs_pre_enc (x y : Block is32) : Costs (Arm.pre_enc x y) 2 := costs_bind 1 (costs_aese _ _) fun _ => costs_ins _ _
theorem costs_pre_dec (x y : Block is32) : Costs (Arm.pre_dec x y) 2 := costs_bind 1 (costs_aesd _ _) fun _ => costs_ins _ _
theorem costs_sub_word (x) : Costs (Arm.sub_word x) 3 := by unfold Arm.sub_word; cost_rules
theorem costs_first {n : Nat} (c : Vector U32 n) (i j r) : Costs (Arm.first c i j r) 7 := by unfold Arm.first; cost_rules [costs_sub_word]
theorem costs_fifth {n : Nat} (c : Vector U32 n) (i j) : Costs (Arm.fifth c i j) 4 := by unfold Arm.fifth; cost_rules [costs_sub_word]
theorem cost : CostBlock (Block is32) 1 (blockPrice (.arm is32)) (some 1) 1 1 104 100 120 where
  vec :=
    { new := fun b => costs_emit _ _
      bitand := fun x y => costs_ins _ _
      bitor := fun x y => costs_ins _ _
      bitxor := fun x y => costs_ins _ _
      not := fun x => costs_ins _ _
      enc := fun x y => costs_bind0 (costs_pure _) fun _ => costs_bind 2 (costs_pre_enc _ _) fun _ => costs_bitxor _ _
      dec := fun x y => costs_bind0 (costs_pure _) fun _ => costs_bind 2 (costs_pre_dec _ _) fun _ => costs_bitxor _ _
      enc_last := fun x y => costs_bind0 (costs_pure _) fun _ => costs_bind 1 (costs_aese _ _) fun _ => costs_bitxor _ _
      dec_last := fun x y => costs_bind0 (costs_pure _) fun _ => costs_bind 1 (costs_aesd _ _) fun _ => costs_bitxor _ _
      pre_none := fun h => by cases h
      pre_some := fun s h => by cases h; exact ⟨_, rfl, fun x y => ⟨costs_pre_enc x y, costs_pre_dec x y⟩⟩ }
  zero := costs_pure _
  mc := fun x => costs_ins _ _
  imc := fun x => costs_ins _ _
  keygen_128 := fun k => costs_bind (k := 0) _ (Columns.costs_128 costs_first _ _) fun _ => costs_pure _
  keygen_192 := fun k => costs_bind (k := 0) _ (Columns.costs_192 costs_first _ _) fun _ => costs_pure _
  keygen_256 := fun k => costs_bind (k := 0) _ (Columns.costs_256 costs_first costs_fifth costs_first _ _) fun _ => costs_pure _
end Arm

namespace Riscv64
open Aes.Riscv64 (Block)
theorem costs_from_bytes (b) : Costs (Riscv64.from_bytes b) 1 := costs_emit _ _
theorem costs_ks (r v w) : Costs (Riscv64.ks r v w) 2 := by unfold Riscv64.ks; cost_rules
theorem costs_keyexp_128 (r v) : Costs (Riscv64.keyexp_128 r v) 3 := by unfold Riscv64.keyexp_128; cost_rules [costs_ks]
theorem costs_keyexp_192 (r v) : Costs (Riscv64.keyexp_192 r v) 4 := by unfold Riscv64.keyexp_192; cost_rules [costs_ks]
theorem costs_keyexp_256_1 (r v w) : Costs (Riscv64.keyexp_256_1 r v w) 3 := by unfold Riscv64.keyexp_256_1; cost_rules [costs_ks]
theorem costs_keyexp_256_2 (v w) : Costs (Riscv64.keyexp_256_2 v w) 3 := by unfold Riscv64.keyexp_256_2; cost_rules [costs_ks]
theorem costs_load_u64 (k o) : Costs (Riscv64.load_u64 k o) 1 := by unfold Riscv64.load_u64; cost_rules
theorem costs_keygen_128 (k) : Costs (Riscv64.keygen_128 k) 31 := by unfold Riscv64.keygen_128; cost_rules [costs_keyexp_128, costs_from_bytes]
theorem costs_keygen_192 (k) : Costs (Riscv64.keygen_192 k) 35 := by unfold Riscv64.keygen_192; cost_rules [costs_keyexp_192, costs_load_u64, costs_ks]
theorem costs_keygen_256 (k) : Costs (Riscv64.keygen_256 k) 41 := by unfold Riscv64.keygen_256; cost_rules [costs_keyexp_256_1, costs_keyexp_256_2, costs_from_bytes]
theorem cost : CostBlock Block 1 (blockPrice .riscv64) none 4 2 31 35 41 where
  vec :=
    { new := fun b => costs_emit _ _
      bitand := fun x y => by show Costs (Riscv64.bitand x y) 2; unfold Riscv64.bitand; cost_rules
      bitor := fun x y => by show Costs (Riscv64.bitor x y) 2; unfold Riscv64.bitor; cost_rules
      bitxor := fun x y => by show Costs (Riscv64.bitxor x y) 2; unfold Riscv64.bitxor; cost_rules
      not := fun x => by show Costs (Riscv64.not x) 2; unfold Riscv64.not; cost_rules
      enc := fun x y => by show Costs (Riscv64.enc x y) 4; unfold Riscv64.enc; cost_rules
      dec := fun x y => by show Costs (Riscv64.dec x y) 4; unfold Riscv64.dec; cost_rules
      enc_last := fun x y => by show Costs (Riscv64.enc_last x y) 4; unfold Riscv64.enc_last; cost_rules
      dec_last := fun x y => by show Costs (Riscv64.dec_last x y) 4; unfold Riscv64.dec_last; cost_rules
      pre_none := fun _ => rfl
      pre_some := fun _ h => by cases h }
  zero := costs_pure _
  mc := fun x => by show Costs (Riscv64.mc x) 4; unfold Riscv64.mc; cost_rules
  imc := fun x => by show Costs (Riscv64.imc x) 2; unfold Riscv64.imc; cost_rules
  keygen_128 := costs_keygen_128
  keygen_192 := costs_keygen_192
  keygen_256 := costs_keygen_256
end Riscv64

namespace Riscv32
open Aes.Riscv32 (Block)
theorem costs_inner (s f a b c d e) : Costs (Riscv32.inner s f a b c d e) 4 := by unfold Riscv32.inner; cost_rules
theorem costs_outer (s f a b) : Costs (Riscv32.outer s f a b) 16 := by unfold Riscv32.outer; cost_rules [costs_inner]
theorem costs_bitxor (x y) : Costs (Riscv32.bitxor x y) 4 := by unfold Riscv32.bitxor; cost_rules
theorem costs_enc (x y) : Costs (Riscv32.enc x y) 20 := costs_bind0 (costs_pure _) fun _ => costs_bind 16 (costs_outer _ _ _ _) fun _ => costs_bitxor _ _
theorem costs_dec (x y) : Costs (Riscv32.dec x y) 20 := costs_bind0 (costs_pure _) fun _ => costs_bind 16 (costs_outer _ _ _ _) fun _ => costs_bitxor _ _
theorem costs_sub_word (x y) : Costs (Riscv32.sub_word x y) 4 := costs_inner _ _ _ _ _ _ _
theorem costs_first {n : Nat} (c : Vector U32 n) (i j r) : Costs (Riscv32.first c i j r) 6 := by unfold Riscv32.first; cost_rules [costs_sub_word]
theorem costs_first_256 {n : Nat} (c : Vector U32 n) (i j r) : Costs (Riscv32.first_256 c i j r) 7 := by unfold Riscv32.first_256; cost_rules [costs_sub_word]
theorem costs_fifth {n : Nat} (c : Vector U32 n) (i j) : Costs (Riscv32.fifth c i j) 4 := by unfold Riscv32.fifth; cost_rules [costs_sub_word]
theorem cost : CostBlock Block 1 (blockPrice .riscv32) (some 4) 36 36 94 92 119 where
  vec :=
    { new := fun b _ _ => rfl
      bitand := fun x y => by show Costs (Riscv32.bitand x y) 4; unfold Riscv32.bitand; cost_rules
      bitor := fun x y => by show Costs (Riscv32.bitor x y) 4; unfold Riscv32.bitor; cost_rules
      bitxor := costs_bitxor
      not := fun x => by show Costs (Riscv32.not x) 4; unfold Riscv32.not; cost_rules
      enc := costs_enc
      dec := costs_dec
      enc_last := fun x y => costs_bind0 (costs_pure _) fun _ => costs_bind 16 (costs_outer _ _ _ _) fun _ => costs_bitxor _ _
      dec_last := fun x y => costs_bind0 (costs_pure _) fun _ => costs_bind 16 (costs_outer _ _ _ _) fun _ => costs_bitxor _ _
      pre_none := fun h => by cases h
      pre_some := fun s h => by cases h; exact ⟨_, rfl, fun x y => ⟨costs_outer _ _ _ _, costs_outer _ _ _ _⟩⟩ }
  zero := costs_pure _
  mc := fun x => costs_bind0 (costs_pure _) fun _ => costs_bind 16 (costs_outer _ _ _ _) fun _ => costs_bind0 (costs_pure _) fun _ => costs_enc _ _
  imc := fun x => costs_bind0 (costs_pure _) fun _ => costs_bind 16 (costs_outer _ _ _ _) fun _ => costs_bind0 (costs_pure _) fun _ => costs_dec _ _
  keygen_128 := fun k => costs_bind (k := 0) _ (Columns.costs_128 costs_first _ _) fun _ => costs_quiet _
  keygen_192 := fun k => costs_bind (k := 0) _ (Columns.costs_192 costs_first _ _) fun _ => costs_quiet _
  keygen_256 := fun k => costs_bind (k := 0) _ (Columns.costs_256 costs_first_256 costs_fifth costs_first _ _) fun _ => costs_quiet _
end Riscv32
end Aes.Leak
