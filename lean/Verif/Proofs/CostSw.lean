import Verif.Proofs.Cost
/-! The work of the portable modules. -/
namespace Aes.Leak
open Rust AesSpec

namespace Table
open Aes.Table (Block)
theorem costs_lookup {a} (t x) (ha : a ≠ .data) : Costs (Table.lookup a t x) 2 := by
  refine costs_bind 1 (costs_cast _ _) fun _ => fun _ _ => ?_
  show work (.read a _) + 0 = 1
  simp [work, ha]
theorem costs_te0 (x) : Costs (te0 x) 2 := costs_lookup _ _ nofun
theorem costs_te1 (x) : Costs (te1 x) 2 := costs_lookup _ _ nofun
theorem costs_te2 (x) : Costs (te2 x) 2 := costs_lookup _ _ nofun
theorem costs_te3 (x) : Costs (te3 x) 2 := costs_lookup _ _ nofun
theorem costs_td0 (x) : Costs (td0 x) 2 := costs_lookup _ _ nofun
theorem costs_td1 (x) : Costs (td1 x) 2 := costs_lookup _ _ nofun
theorem costs_td2 (x) : Costs (td2 x) 2 := costs_lookup _ _ nofun
theorem costs_td3 (x) : Costs (td3 x) 2 := costs_lookup _ _ nofun
theorem costs_te4_0 (x) : Costs (te4_0 x) 3 := costs_bind 2 (costs_lookup _ _ nofun) fun _ => costs_and _ _
theorem costs_te4_1 (x) : Costs (te4_1 x) 3 := costs_bind 2 (costs_lookup _ _ nofun) fun _ => costs_and _ _
theorem costs_te4_2 (x) : Costs (te4_2 x) 3 := costs_bind 2 (costs_lookup _ _ nofun) fun _ => costs_and _ _
theorem costs_te4_3 (x) : Costs (te4_3 x) 3 := costs_bind 2 (costs_lookup _ _ nofun) fun _ => costs_and _ _
theorem costs_td4_0 (x) : Costs (td4_0 x) 3 := costs_bind 2 (costs_lookup _ _ nofun) fun _ => costs_and _ _
theorem costs_td4_1 (x) : Costs (td4_1 x) 3 := costs_bind 2 (costs_lookup _ _ nofun) fun _ => costs_and _ _
theorem costs_td4_2 (x) : Costs (td4_2 x) 3 := costs_bind 2 (costs_lookup _ _ nofun) fun _ => costs_and _ _
theorem costs_td4_3 (x) : Costs (td4_3 x) 3 := costs_bind 2 (costs_lookup _ _ nofun) fun _ => costs_and _ _
macro_rules | `(tactic| cost_step) => `(tactic| with_reducible first
  | exact costs_te0 _ | exact costs_te1 _ | exact costs_te2 _ | exact costs_te3 _
  | exact costs_td0 _ | exact costs_td1 _ | exact costs_td2 _ | exact costs_td3 _
  | exact costs_te4_0 _ | exact costs_te4_1 _ | exact costs_te4_2 _ | exact costs_te4_3 _
  | exact costs_td4_0 _ | exact costs_td4_1 _ | exact costs_td4_2 _ | exact costs_td4_3 _)
theorem costs_load (s o) : Costs (load_u32_be s o) 10 := by unfold load_u32_be; cost_rules
theorem costs_new (b) : Costs (Table.new b) 40 := by unfold Table.new; cost_rules [costs_load]
theorem costs_from_bytes (b) : Costs (Table.from_bytes b) 40 := costs_new b
theorem costs_sub_word (x) : Costs (Table.sub_word x) 18 := by unfold Table.sub_word; cost_rules
theorem costs_keyexp_128 (r v) : Costs (Table.keyexp_128 r v) 23 := by unfold Table.keyexp_128; cost_rules [costs_sub_word]
theorem costs_keyexp_192 (r v) : Costs (Table.keyexp_192 r v) 25 := by unfold Table.keyexp_192; cost_rules [costs_sub_word]
theorem costs_keyexp_256_1 (r v w) : Costs (Table.keyexp_256_1 r v w) 23 := by unfold Table.keyexp_256_1; cost_rules [costs_sub_word]
theorem costs_keyexp_256_2 (v w) : Costs (Table.keyexp_256_2 v w) 23 := by unfold Table.keyexp_256_2; cost_rules [costs_sub_word]
theorem costs_keygen_128 (k) : Costs (Table.keygen_128 k) 270 := by unfold Table.keygen_128; cost_rules [costs_keyexp_128, costs_from_bytes]
theorem costs_keygen_192 (k) : Costs (Table.keygen_192 k) 260 := by unfold Table.keygen_192; cost_rules [costs_keyexp_192, costs_load]
theorem costs_keygen_256 (k) : Costs (Table.keygen_256 k) 379 := by unfold Table.keygen_256; cost_rules [costs_keyexp_256_1, costs_keyexp_256_2, costs_from_bytes]
theorem cost : CostBlock Block 40 (blockPrice .table) none 104 104 270 260 379 where
  vec :=
    { new := costs_new
      bitand := fun x y => by show Costs (Table.bitand x y) 4; unfold Table.bitand; cost_rules
      bitor := fun x y => by show Costs (Table.bitor x y) 4; unfold Table.bitor; cost_rules
      bitxor := fun x y => by show Costs (Table.bitxor x y) 4; unfold Table.bitxor; cost_rules
      not := fun x => by show Costs (Table.not x) 4; unfold Table.not; cost_rules
      enc := fun x y => by show Costs (Table.enc x y) 60; unfold Table.enc; cost_rules
      dec := fun x y => by show Costs (Table.dec x y) 60; unfold Table.dec; cost_rules
      enc_last := fun x y => by show Costs (Table.enc_last x y) 76; unfold Table.enc_last; cost_rules
      dec_last := fun x y => by show Costs (Table.dec_last x y) 76; unfold Table.dec_last; cost_rules
      pre_none := fun _ => rfl
      pre_some := fun _ h => by cases h }
  zero := costs_pure _
  mc := fun x => by show Costs (Table.mc x) 104; unfold Table.mc; cost_rules
  imc := fun x => by show Costs (Table.imc x) 104; unfold Table.imc; cost_rules
  keygen_128 := costs_keygen_128
  keygen_192 := costs_keygen_192
  keygen_256 := costs_keygen_256
end Table

namespace Bitslice
open Aes.Bitslice (Block)
theorem costs_ror1 (x) : Costs (ror1 x) 5 := by unfold ror1; cost_rules
theorem costs_swap2 (x) : Costs (swap2 x) 5 := by unfold swap2; cost_rules
theorem costs_step_a (a b m) : Costs (step_a a b m) 11 := by unfold step_a; cost_rules
theorem costs_step_b (a m) : Costs (step_b a m) 6 := by unfold step_b; cost_rules
macro_rules | `(tactic| cost_step) => `(tactic| with_reducible first
  | exact costs_ror1 _ | exact costs_swap2 _ | exact costs_step_a _ _ _ | exact costs_step_b _ _)
theorem costs_subbytes (x) : Costs (subbytes x) 232 := by unfold subbytes; cost_rules
theorem costs_invsubbytes (x) : Costs (invsubbytes x) 246 := by unfold invsubbytes; cost_rules
theorem costs_xtime (x) : Costs (xtime x) 7 := by unfold xtime; cost_rules
theorem costs_swap16 (x) : Costs (swap16 x) 5 := by unfold swap16; cost_rules
theorem costs_swap8 (x) : Costs (swap8 x) 5 := by unfold swap8; cost_rules
theorem costs_ror8_32 (e x) : Costs (ror8_32 e x) 5 := by unfold ror8_32; cases e <;> cost_rules
theorem costs_mixcolumns (e x) : Costs (mixcolumns e x) 27 := by unfold mixcolumns; cost_rules [costs_xtime, costs_swap16, costs_swap8, costs_ror8_32]
theorem costs_invmixcolumns (e x) : Costs (invmixcolumns e x) 55 := by
  unfold invmixcolumns; cost_rules [costs_xtime, costs_swap16, costs_swap8, costs_ror8_32, costs_mixcolumns]
theorem costs_sub_word (x) : Costs (Bitslice.sub_word x) 234 := by unfold Bitslice.sub_word; cost_rules [costs_subbytes]
theorem costs_pick (s) : ∀ l, Costs (pick s l) 0
  | [] => costs_pure _
  | _ :: l => costs_bind0 (costs_idx _ _) fun _ => costs_bind0 (costs_pick s l) fun _ => costs_pure _
theorem costs_shiftrows (e s) : Costs (shiftrows e s) 1 := by unfold shiftrows; cost_rules [costs_pick]
theorem costs_invshiftrows (e s) : Costs (invshiftrows e s) 1 := by unfold invshiftrows; cost_rules [costs_pick]
variable {e : Endian}
theorem costs_bitxor (x y : Block e) : Costs (Bitslice.bitxor x y) 1 := by unfold Bitslice.bitxor; cost_rules
theorem costs_mc (x : Block e) : Costs (Bitslice.mc x) 27 := by unfold Bitslice.mc; cost_rules [costs_mixcolumns]
theorem costs_imc (x : Block e) : Costs (Bitslice.imc x) 55 := by unfold Bitslice.imc; cost_rules [costs_invmixcolumns]
theorem costs_first {n : Nat} (c : Vector U32 n) (i j r) : Costs (Bitslice.first c i j r) 238 := by unfold Bitslice.first; cost_rules [costs_sub_word]
theorem costs_fifth {n : Nat} (c : Vector U32 n) (i j) : Costs (Bitslice.fifth c i j) 235 := by unfold Bitslice.fifth; cost_rules [costs_sub_word]
theorem cost : CostBlock (Block e) 1 (blockPrice (.bitslice e)) none 27 55 2414 1948 3123 where
  vec :=
    { new := fun b => costs_bind 1 (costs_emit _ _) fun _ => costs_pure _
      bitand := fun x y => by show Costs (Bitslice.bitand x y) 1; unfold Bitslice.bitand; cost_rules
      bitor := fun x y => by show Costs (Bitslice.bitor x y) 1; unfold Bitslice.bitor; cost_rules
      bitxor := costs_bitxor
      not := fun x => by show Costs (Bitslice.not x) 1; unfold Bitslice.not; cost_rules
      enc := fun x y => by
        show Costs (Bitslice.enc x y) 262
        unfold Bitslice.enc; cost_rules [costs_subbytes, costs_shiftrows, costs_mc, costs_bitxor]
      dec := fun x y => by
        show Costs (Bitslice.dec x y) 304
        unfold Bitslice.dec; cost_rules [costs_invsubbytes, costs_invshiftrows, costs_imc, costs_bitxor]
      enc_last := fun x y => by
        show Costs (Bitslice.enc_last x y) 235
        unfold Bitslice.enc_last; cost_rules [costs_subbytes, costs_shiftrows, costs_bitxor]
      dec_last := fun x y => by
        show Costs (Bitslice.dec_last x y) 249
        unfold Bitslice.dec_last; cost_rules [costs_invsubbytes, costs_invshiftrows, costs_bitxor]
      pre_none := fun _ => rfl
      pre_some := fun _ h => by cases h }
  zero := costs_pure _
  mc := costs_mc
  imc := costs_imc
  keygen_128 := fun k => costs_bind (k := 0) _ (Columns.costs_128 costs_first _ _) fun _ => costs_pure _
  keygen_192 := fun k => costs_bind (k := 0) _ (Columns.costs_192 costs_first _ _) fun _ => costs_pure _
  keygen_256 := fun k => costs_bind (k := 0) _ (Columns.costs_256 costs_first costs_fifth costs_first _ _) fun _ => costs_pure _
end Bitslice
end Aes.Leak
