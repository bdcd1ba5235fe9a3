import Verif.Proofs.Instr
/-! The portable modules execute no special instruction. -/
set_option linter.unusedSectionVars false
namespace Aes.Leak
open Rust
variable {ok : String → Prop}

namespace Table
open Aes.Table (Block)
theorem only_lookup (a t x) : Only ok (Table.lookup a t x) := by
  refine only_bind (only_cast _ _) fun _ => only_mk fun n h => by cases List.mem_singleton.mp h
theorem only_te0 (x) : Only ok (te0 x) := only_lookup _ _ _
theorem only_te1 (x) : Only ok (te1 x) := only_lookup _ _ _
theorem only_te2 (x) : Only ok (te2 x) := only_lookup _ _ _
theorem only_te3 (x) : Only ok (te3 x) := only_lookup _ _ _
theorem only_td0 (x) : Only ok (td0 x) := only_lookup _ _ _
theorem only_td1 (x) : Only ok (td1 x) := only_lookup _ _ _
theorem only_td2 (x) : Only ok (td2 x) := only_lookup _ _ _
theorem only_td3 (x) : Only ok (td3 x) := only_lookup _ _ _
theorem only_te4_0 (x) : Only ok (te4_0 x) := only_bind (only_lookup _ _ _) fun _ => only_and _ _
theorem only_te4_1 (x) : Only ok (te4_1 x) := only_bind (only_lookup _ _ _) fun _ => only_and _ _
theorem only_te4_2 (x) : Only ok (te4_2 x) := only_bind (only_lookup _ _ _) fun _ => only_and _ _
theorem only_te4_3 (x) : Only ok (te4_3 x) := only_bind (only_lookup _ _ _) fun _ => only_and _ _
theorem only_td4_0 (x) : Only ok (td4_0 x) := only_bind (only_lookup _ _ _) fun _ => only_and _ _
theorem only_td4_1 (x) : Only ok (td4_1 x) := only_bind (only_lookup _ _ _) fun _ => only_and _ _
theorem only_td4_2 (x) : Only ok (td4_2 x) := only_bind (only_lookup _ _ _) fun _ => only_and _ _
theorem only_td4_3 (x) : Only ok (td4_3 x) := only_bind (only_lookup _ _ _) fun _ => only_and _ _
macro "te_rules" : tactic => `(tactic| (only_rules <;> with_reducible first
  | exact only_te0 _ | exact only_te1 _ | exact only_te2 _ | exact only_te3 _
  | exact only_td0 _ | exact only_td1 _ | exact only_td2 _ | exact only_td3 _
  | exact only_te4_0 _ | exact only_te4_1 _ | exact only_te4_2 _ | exact only_te4_3 _
  | exact only_td4_0 _ | exact only_td4_1 _ | exact only_td4_2 _ | exact only_td4_3 _))
theorem only_load (s o) : Only ok (load_u32_be s o) := by unfold load_u32_be; only_rules
theorem only_store (s o) : Only ok (store_u32_be s o) := by unfold store_u32_be; only_rules
theorem only_new (b) : Only ok (Table.new b) := by unfold Table.new; only_rules <;> exact only_load _ _
theorem only_store_to (x d) : Only ok (Table.store_to x d) := by unfold Table.store_to; only_rules <;> exact only_store _ _
theorem only_sub_word (x) : Only ok (Table.sub_word x) := by unfold Table.sub_word; te_rules
theorem only_keyexp_128 (r v) : Only ok (Table.keyexp_128 r v) := by unfold Table.keyexp_128; only_rules; exact only_sub_word _
theorem only_keyexp_192 (r v) : Only ok (Table.keyexp_192 r v) := by unfold Table.keyexp_192; only_rules; exact only_sub_word _
theorem only_keyexp_256_1 (r v w) : Only ok (Table.keyexp_256_1 r v w) := by unfold Table.keyexp_256_1; only_rules; exact only_sub_word _
theorem only_keyexp_256_2 (v w) : Only ok (Table.keyexp_256_2 v w) := by unfold Table.keyexp_256_2; only_rules; exact only_sub_word _
theorem only_keygen_128 (k) : Only ok (Table.keygen_128 k) := by
  unfold Table.keygen_128; only_rules <;> first | with_reducible exact only_keyexp_128 _ _ | exact only_new _
theorem only_keygen_192 (k) : Only ok (Table.keygen_192 k) := by
  unfold Table.keygen_192; only_rules <;> with_reducible first | exact only_keyexp_192 _ _ | exact only_load _ _
theorem only_keygen_256 (k) : Only ok (Table.keygen_256 k) := by
  unfold Table.keygen_256
  only_rules <;> first | with_reducible exact only_keyexp_256_1 _ _ _ | with_reducible exact only_keyexp_256_2 _ _ | exact only_try_from_slice _ only_new _
theorem only : OnlyBlock ok Block where
  vec :=
    { new := only_new
      from_bytes := only_new
      store_to := only_store_to
      zero := only_pure _
      is_zero := fun x => by show Only ok (Table.is_zero x); unfold Table.is_zero; only_rules
      eq := fun x y => only_andAlso (only_eqw _ _) (only_andAlso (only_eqw _ _) (only_andAlso (only_eqw _ _) (only_eqw _ _)))
      bitand := fun x y => by show Only ok (Table.bitand x y); unfold Table.bitand; only_rules
      bitor := fun x y => by show Only ok (Table.bitor x y); unfold Table.bitor; only_rules
      bitxor := fun x y => by show Only ok (Table.bitxor x y); unfold Table.bitxor; only_rules
      not := fun x => by show Only ok (Table.not x); unfold Table.not; only_rules
      enc := fun x y => by show Only ok (Table.enc x y); unfold Table.enc; te_rules
      dec := fun x y => by show Only ok (Table.dec x y); unfold Table.dec; te_rules
      enc_last := fun x y => by show Only ok (Table.enc_last x y); unfold Table.enc_last; te_rules
      dec_last := fun x y => by show Only ok (Table.dec_last x y); unfold Table.dec_last; te_rules
      pre := fun p hp => by cases hp }
  mc := fun x => by show Only ok (Table.mc x); unfold Table.mc; te_rules
  imc := fun x => by show Only ok (Table.imc x); unfold Table.imc; te_rules
  keygen_128 := only_keygen_128
  keygen_192 := only_keygen_192
  keygen_256 := only_keygen_256
end Table

namespace Bitslice
open Aes.Bitslice (Block)
theorem only_ror1 (x) : Only ok (ror1 x) := by unfold ror1; only_rules
theorem only_swap2 (x) : Only ok (swap2 x) := by unfold swap2; only_rules
theorem only_step_a (a b m) : Only ok (step_a a b m) := by unfold step_a; only_rules
theorem only_step_b (a m) : Only ok (step_b a m) := by unfold step_b; only_rules
theorem only_subbytes (x) : Only ok (subbytes x) := by
  unfold subbytes; only_rules <;> with_reducible first | exact only_ror1 _ | exact only_swap2 _ | exact only_step_a _ _ _ | exact only_step_b _ _
theorem only_invsubbytes (x) : Only ok (invsubbytes x) := by
  unfold invsubbytes; only_rules <;> with_reducible first | exact only_ror1 _ | exact only_swap2 _ | exact only_step_a _ _ _ | exact only_step_b _ _
theorem only_xtime (x) : Only ok (xtime x) := by unfold xtime; only_rules
theorem only_swap16 (x) : Only ok (swap16 x) := by unfold swap16; only_rules
theorem only_swap8 (x) : Only ok (swap8 x) := by unfold swap8; only_rules
theorem only_ror8_32 (e x) : Only ok (ror8_32 e x) := by unfold ror8_32; cases e <;> only_rules
theorem only_mixcolumns (e x) : Only ok (mixcolumns e x) := by
  unfold mixcolumns; only_rules <;> with_reducible first | exact only_xtime _ | exact only_swap16 _ | exact only_swap8 _ | exact only_ror8_32 _ _
theorem only_invmixcolumns (e x) : Only ok (invmixcolumns e x) := by
  unfold invmixcolumns; only_rules <;> with_reducible first | exact only_xtime _ | exact only_swap16 _ | exact only_swap8 _ | exact only_ror8_32 _ _
theorem only_sub_word (x) : Only ok (Bitslice.sub_word x) := by unfold Bitslice.sub_word; only_rules; exact only_subbytes _
theorem only_pick (s) : ∀ l, Only ok (pick s l)
  | [] => only_pure _
  | _ :: l => only_bind (only_idx _ _ _) fun _ => only_bind (only_pick s l) fun _ => only_pure _
theorem only_shiftrows (e s) : Only ok (shiftrows e s) := by unfold shiftrows; only_rules; exact only_pick _ _
theorem only_invshiftrows (e s) : Only ok (invshiftrows e s) := by unfold invshiftrows; only_rules; exact only_pick _ _
variable {e : Endian}
theorem only_new (b) : Only ok (Bitslice.new b : L (Block e)) := by unfold Bitslice.new; only_rules
theorem only_bitxor (x y : Block e) : Only ok (Bitslice.bitxor x y) := by unfold Bitslice.bitxor; only_rules
theorem only_mc (x : Block e) : Only ok (Bitslice.mc x) := by unfold Bitslice.mc; only_rules; exact only_mixcolumns _ _
theorem only_imc (x : Block e) : Only ok (Bitslice.imc x) := by unfold Bitslice.imc; only_rules; exact only_invmixcolumns _ _
macro "bs_rules" : tactic => `(tactic| (only_rules <;> with_reducible first
  | exact only_subbytes _ | exact only_invsubbytes _ | exact only_shiftrows _ _ | exact only_invshiftrows _ _ | exact only_mc _ | exact only_imc _
  | exact only_bitxor _ _))
theorem only_first {n : Nat} (c : Vector U32 n) (i j r) : Only ok (Bitslice.first c i j r) := by
  unfold Bitslice.first; only_rules; exact only_sub_word _
theorem only_fifth {n : Nat} (c : Vector U32 n) (i j) : Only ok (Bitslice.fifth c i j) := by
  unfold Bitslice.fifth; only_rules; exact only_sub_word _
theorem only : OnlyBlock ok (Block e) where
  vec :=
    { new := only_new
      from_bytes := only_new
      store_to := fun x d => by show Only ok (Bitslice.store_to x d); unfold Bitslice.store_to; only_rules
      zero := only_pure _
      is_zero := fun x => only_eqw _ _
      eq := fun x y => only_eqw _ _
      bitand := fun x y => by show Only ok (Bitslice.bitand x y); unfold Bitslice.bitand; only_rules
      bitor := fun x y => by show Only ok (Bitslice.bitor x y); unfold Bitslice.bitor; only_rules
      bitxor := only_bitxor
      not := fun x => by show Only ok (Bitslice.not x); unfold Bitslice.not; only_rules
      enc := fun x y => by show Only ok (Bitslice.enc x y); unfold Bitslice.enc; bs_rules
      dec := fun x y => by show Only ok (Bitslice.dec x y); unfold Bitslice.dec; bs_rules
      enc_last := fun x y => by show Only ok (Bitslice.enc_last x y); unfold Bitslice.enc_last; bs_rules
      dec_last := fun x y => by show Only ok (Bitslice.dec_last x y); unfold Bitslice.dec_last; bs_rules
      pre := fun p hp => by cases hp }
  mc := only_mc
  imc := only_imc
  keygen_128 := fun k => only_bind (Columns.only_128 only_first _ _) fun _ => only_pure _
  keygen_192 := fun k => only_bind (Columns.only_192 only_first _ _) fun _ => only_pure _
  keygen_256 := fun k => only_bind (Columns.only_256 only_first only_fifth only_first _ _) fun _ => only_pure _
end Bitslice
end Aes.Leak
