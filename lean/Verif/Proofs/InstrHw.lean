import Verif.Proofs.Instr
/-! Which instructions the hardware modules execute. -/
set_option linter.unusedSectionVars false
namespace Aes.Leak
open Rust
variable {ok : String → Prop}

/-- Closes `ok "name"` from `h : ∀ n ∈ names, ok n`. -/
macro "named" h:ident : tactic => `(tactic| first | exact $h _ (by simp))

namespace X86
open Aes.X86 (Block)
abbrev names : List String := ["pand", "por", "pxor", "ptest", "aesenc", "aesdec", "aesenclast", "aesdeclast", "aesimc", "aeskeygenassist",
  "pshufd", "pslldq", "punpcklqdq", "palignr"]
variable (h : ∀ n ∈ names, ok n)
include h
theorem only_from_bytes (v : Vector U8 16) : Only ok (X86.from_bytes v) := by unfold X86.from_bytes; only_rules
theorem only_mix (v) : Only ok (X86.mix v) := by unfold X86.mix; only_rules <;> named h
theorem only_assist (i r v) : Only ok (X86.assist i r v) := by unfold X86.assist; only_rules <;> named h
theorem only_keyexp_128 (r v) : Only ok (X86.keyexp_128 r v) := by
  unfold X86.keyexp_128; only_rules <;> first | named h | exact only_mix h _ | exact only_assist h _ _ _
theorem only_fwd (r v w) : Only ok (X86.fwd r v w) := by
  unfold X86.fwd; only_rules <;> first | named h | exact only_mix h _ | exact only_assist h _ _ _
theorem only_keyexp_192 (r v w) : Only ok (X86.keyexp_192 r v w) := by
  unfold X86.keyexp_192; only_rules <;> first | named h | exact only_fwd h _ _ _
theorem only_keyexp_256_1 (r v w) : Only ok (X86.keyexp_256_1 r v w) := by
  unfold X86.keyexp_256_1; only_rules <;> first | named h | exact only_mix h _ | exact only_assist h _ _ _
theorem only_keyexp_256_2 (v w) : Only ok (X86.keyexp_256_2 v w) := by
  unfold X86.keyexp_256_2; only_rules <;> first | named h | exact only_mix h _ | exact only_assist h _ _ _
theorem only_keygen_128 (k) : Only ok (X86.keygen_128 k) := by
  unfold X86.keygen_128; only_rules <;> first | exact only_keyexp_128 h _ _ | exact only_from_bytes h _
theorem only_keygen_192 (k) : Only ok (X86.keygen_192 k) := by
  unfold X86.keygen_192
  only_rules <;> first
    | with_reducible exact only_keyexp_192 h _ _ _
    | with_reducible exact only_from_bytes h _
    | with_reducible exact only_try_from_slice _ (only_from_bytes h) _
    | with_reducible exact only_mk (writes_no _)
theorem only_keygen_256 (k) : Only ok (X86.keygen_256 k) := by
  unfold X86.keygen_256
  only_rules <;> with_reducible first | exact only_keyexp_256_1 h _ _ _ | exact only_keyexp_256_2 h _ _ | exact only_try_from_slice _ (only_from_bytes h) _
theorem only_is_zero (x) : Only ok (X86.is_zero x) := by unfold X86.is_zero; only_rules <;> named h
theorem only_bitxor (x y) : Only ok (X86.bitxor x y) := by unfold X86.bitxor; only_rules <;> named h
theorem only : OnlyBlock ok Block where
  vec :=
    { new := fun b => only_emit _ fun _ h => by cases h
      from_bytes := only_from_bytes h
      store_to := fun x d => only_bind (only_assert _) fun _ => only_rawWrite _ _
      zero := only_pure _
      is_zero := only_is_zero h
      eq := fun x y => only_bind (only_bitxor h _ _) fun _ => only_is_zero h _
      bitand := fun x y => only_ins _ (by named h)
      bitor := fun x y => only_ins _ (by named h)
      bitxor := only_bitxor h
      not := fun x => only_ins _ (by named h)
      enc := fun x y => only_ins _ (by named h)
      dec := fun x y => only_ins _ (by named h)
      enc_last := fun x y => only_ins _ (by named h)
      dec_last := fun x y => only_ins _ (by named h)
      pre := fun p hp => by cases hp }
  mc := fun x => only_bind (only_ins _ (by named h)) fun _ => only_ins _ (by named h)
  imc := fun x => only_ins _ (by named h)
  keygen_128 := only_keygen_128 h
  keygen_192 := only_keygen_192 h
  keygen_256 := only_keygen_256 h
end X86

namespace NiX2
open Aes.NiX2 (X2)
abbrev names : List String := ["vpand ymm", "vpor ymm", "vpxor ymm", "vptest ymm", "vaesenc ymm", "vaesdec ymm", "vaesenclast ymm", "vaesdeclast ymm"]
theorem only (h : ∀ n ∈ names, ok n) : OnlyVec ok X2 where
  new b := only_emit _ fun _ h => by cases h
  from_bytes b := only_bind (only_rawRead _ _ _) fun _ => only_pure _
  store_to x d := only_bind (only_assert _) fun _ => only_rawWrite _ _
  zero := only_pure _
  is_zero x := only_bind (only_ins _ (by named h)) fun _ => only_emit _ fun _ h => by cases h
  eq x y := only_bind (only_ins _ (by named h)) fun _ => only_bind (only_ins _ (by named h)) fun _ => only_emit _ fun _ h => by cases h
  bitand x y := only_ins _ (by named h)
  bitor x y := only_ins _ (by named h)
  bitxor x y := only_ins _ (by named h)
  not x := only_ins _ (by named h)
  enc x y := only_ins _ (by named h)
  dec x y := only_ins _ (by named h)
  enc_last x y := only_ins _ (by named h)
  dec_last x y := only_ins _ (by named h)
  pre p hp := by cases hp
end NiX2

namespace NiX4
open Aes.NiX4 (X4)
abbrev names : List String := ["vpandq zmm", "vporq zmm", "vpxorq zmm", "vptestmq zmm", "vpcmpeqq zmm", "vaesenc zmm", "vaesdec zmm", "vaesenclast zmm", "vaesdeclast zmm"]
theorem only (h : ∀ n ∈ names, ok n) : OnlyVec ok X4 where
  new b := only_emit _ fun _ h => by cases h
  from_bytes b := only_bind (only_rawRead _ _ _) fun _ => only_pure _
  store_to x d := only_bind (only_assert _) fun _ => only_rawWrite _ _
  zero := only_pure _
  is_zero x := only_bind (only_ins _ (by named h)) fun _ => only_emit _ fun _ h => by cases h
  eq x y := only_bind (only_ins _ (by named h)) fun _ => only_emit _ fun _ h => by cases h
  bitand x y := only_ins _ (by named h)
  bitor x y := only_ins _ (by named h)
  bitxor x y := only_ins _ (by named h)
  not x := only_ins _ (by named h)
  enc x y := only_ins _ (by named h)
  dec x y := only_ins _ (by named h)
  enc_last x y := only_ins _ (by named h)
  dec_last x y := only_ins _ (by named h)
  pre p hp := by cases hp
end NiX4

namespace Arm
open Aes.Arm (Block)
abbrev names : List String := ["and", "orr", "eor", "mvn", "dup", "umov", "aese", "aesd", "aesmc", "aesimc"]
variable (h : ∀ n ∈ names, ok n) {is32 : Bool}
include h
theorem only_is_zero (x : Block is32) : Only ok (Arm.is_zero x) := by
  unfold Arm.is_zero
  cases is32 <;> only_rules <;> named h
theorem only_bitxor (x y : Block is32) : Only ok (Arm.bitxor x y) := only_ins _ (by named h)
theorem only_aese (x y : Block is32) : Only ok (Arm.aese x y) := only_ins _ (by named h)
theorem only_aesd (x y : Block is32) : Only ok (Arm.aesd x y) := only_ins _ (by named h)
theorem only_mc (x : Block is32) : Only ok (Arm.mc x) := only_ins _ (by named h)
theorem only_imc (x : Block is32) : Only ok (Arm.imc x) := only_ins _ (by named h)
theorem only_pre_enc (x y : Block is32) : Only ok (Arm.pre_enc x y) := only_bind (only_aese h _ _) fun _ => only_mc h _
theorem only_pre_dec (x y : Block is32) : Only ok (Arm.pre_dec x y) := only_bind (only_aesd h _ _) fun _ => only_imc h _
theorem only_sub_word (x) : Only ok (Arm.sub_word x) := by unfold Arm.sub_word; only_rules <;> named h
theorem only_first {n : Nat} (c : Vector U32 n) (i j r) : Only ok (Arm.first c i j r) := by
  unfold Arm.first; only_rules; exact only_sub_word h _
theorem only_fifth {n : Nat} (c : Vector U32 n) (i j) : Only ok (Arm.fifth c i j) := by
  unfold Arm.fifth; only_rules; exact only_sub_word h _
theorem only : OnlyBlock ok (Block is32) where
  vec :=
    { new := fun b => only_emit _ fun _ h => by cases h
      from_bytes := fun b => only_bind (only_rawRead _ _ _) fun _ => only_pure _
      store_to := fun x d => only_bind (only_assert _) fun _ => only_rawWrite _ _
      zero := only_pure _
      is_zero := only_is_zero h
      eq := fun x y => only_bind (only_bitxor h _ _) fun _ => only_is_zero h _
      bitand := fun x y => only_ins _ (by named h)
      bitor := fun x y => only_ins _ (by named h)
      bitxor := only_bitxor h
      not := fun x => only_ins _ (by named h)
      enc := fun x y => only_bind (only_pure _) fun _ => only_bind (only_pre_enc h _ _) fun _ => only_bitxor h _ _
      dec := fun x y => only_bind (only_pure _) fun _ => only_bind (only_pre_dec h _ _) fun _ => only_bitxor h _ _
      enc_last := fun x y => only_bind (only_pure _) fun _ => only_bind (only_aese h _ _) fun _ => only_bitxor h _ _
      dec_last := fun x y => only_bind (only_pure _) fun _ => only_bind (only_aesd h _ _) fun _ => only_bitxor h _ _
      pre := fun p hp x y => by cases hp; exact ⟨only_pre_enc h x y, only_pre_dec h x y⟩ }
  mc := only_mc h
  imc := only_imc h
  keygen_128 := fun k => only_bind (Columns.only_128 (only_first h) _ _) fun _ => only_pure _
  keygen_192 := fun k => only_bind (Columns.only_192 (only_first h) _ _) fun _ => only_pure _
  keygen_256 := fun k => only_bind (Columns.only_256 (only_first h) (only_fifth h) (only_first h) _ _) fun _ => only_pure _
end Arm

namespace Riscv64
open Aes.Riscv64 (Block)
abbrev names : List String := ["aes64es", "aes64esm", "aes64ds", "aes64dsm", "aes64im", "aes64ks1i", "aes64ks2"]
variable (h : ∀ n ∈ names, ok n)
include h
theorem only_new (b) : Only ok (Riscv64.new b) := only_emit _ fun _ h => by cases h
theorem only_ks (r v w) : Only ok (Riscv64.ks r v w) := by unfold Riscv64.ks; only_rules <;> named h
theorem only_keyexp_128 (r v) : Only ok (Riscv64.keyexp_128 r v) := by
  unfold Riscv64.keyexp_128; only_rules <;> first | named h | exact only_ks h _ _ _
theorem only_keyexp_192 (r v) : Only ok (Riscv64.keyexp_192 r v) := by
  unfold Riscv64.keyexp_192; only_rules <;> first | named h | exact only_ks h _ _ _
theorem only_keyexp_256_1 (r v w) : Only ok (Riscv64.keyexp_256_1 r v w) := by
  unfold Riscv64.keyexp_256_1; only_rules <;> first | named h | exact only_ks h _ _ _
theorem only_keyexp_256_2 (v w) : Only ok (Riscv64.keyexp_256_2 v w) := by
  unfold Riscv64.keyexp_256_2; only_rules <;> first | named h | exact only_ks h _ _ _
theorem only_load_u64 (k o) : Only ok (Riscv64.load_u64 k o) := by unfold Riscv64.load_u64; only_rules
theorem only_keygen_128 (k) : Only ok (Riscv64.keygen_128 k) := by
  unfold Riscv64.keygen_128; only_rules <;> first | exact only_keyexp_128 h _ _ | exact only_new h _
theorem only_keygen_192 (k) : Only ok (Riscv64.keygen_192 k) := by
  unfold Riscv64.keygen_192; only_rules <;> first | exact only_keyexp_192 h _ _ | exact only_load_u64 h _ _ | exact only_ks h _ _ _ | named h
theorem only_keygen_256 (k) : Only ok (Riscv64.keygen_256 k) := by
  unfold Riscv64.keygen_256
  only_rules <;> first | with_reducible exact only_keyexp_256_1 h _ _ _ | with_reducible exact only_keyexp_256_2 h _ _ | exact only_try_from_slice _ (only_new h) _
theorem only : OnlyBlock ok Block where
  vec :=
    { new := only_new h
      from_bytes := only_new h
      store_to := fun x d => only_bind (only_assert _) fun _ => only_rawWrite _ _
      zero := only_pure _
      is_zero := fun x => by show Only ok (Riscv64.is_zero x); unfold Riscv64.is_zero; only_rules
      eq := fun x y => only_andAlso (only_eqw _ _) (only_eqw _ _)
      bitand := fun x y => by show Only ok (Riscv64.bitand x y); unfold Riscv64.bitand; only_rules
      bitor := fun x y => by show Only ok (Riscv64.bitor x y); unfold Riscv64.bitor; only_rules
      bitxor := fun x y => by show Only ok (Riscv64.bitxor x y); unfold Riscv64.bitxor; only_rules
      not := fun x => by show Only ok (Riscv64.not x); unfold Riscv64.not; only_rules
      enc := fun x y => by show Only ok (Riscv64.enc x y); unfold Riscv64.enc; only_rules <;> named h
      dec := fun x y => by show Only ok (Riscv64.dec x y); unfold Riscv64.dec; only_rules <;> named h
      enc_last := fun x y => by show Only ok (Riscv64.enc_last x y); unfold Riscv64.enc_last; only_rules <;> named h
      dec_last := fun x y => by show Only ok (Riscv64.dec_last x y); unfold Riscv64.dec_last; only_rules <;> named h
      pre := fun p hp => by cases hp }
  mc := fun x => by show Only ok (Riscv64.mc x); unfold Riscv64.mc; only_rules <;> named h
  imc := fun x => by show Only ok (Riscv64.imc x); unfold Riscv64.imc; only_rules <;> named h
  keygen_128 := only_keygen_128 h
  keygen_192 := only_keygen_192 h
  keygen_256 := only_keygen_256 h
end Riscv64

namespace Riscv32
open Aes.Riscv32 (Block)
abbrev names : List String := ["aes32esi", "aes32esmi", "aes32dsi", "aes32dsmi"]
variable (h : ∀ n ∈ names, ok n)
include h
omit h in
theorem only_inner {s : String} (hs : ok s) (f a b c d e) : Only ok (Riscv32.inner s f a b c d e) := by unfold Riscv32.inner; only_rules
omit h in
theorem only_outer {s : String} (hs : ok s) (f a b) : Only ok (Riscv32.outer s f a b) := by
  unfold Riscv32.outer; only_rules <;> exact only_inner hs _ _ _ _ _ _
theorem only_new (b) : Only ok (Riscv32.new b) := only_mk fun n h => by cases List.mem_singleton.mp h
theorem only_bitxor (x y) : Only ok (Riscv32.bitxor x y) := by unfold Riscv32.bitxor; only_rules
theorem only_pre_enc (x y) : Only ok (Riscv32.pre_enc x y) := only_outer (by named h) _ _ _
theorem only_pre_dec (x y) : Only ok (Riscv32.pre_dec x y) := only_outer (by named h) _ _ _
theorem only_pre_enc_last (x y) : Only ok (Riscv32.pre_enc_last x y) := only_outer (by named h) _ _ _
theorem only_pre_dec_last (x y) : Only ok (Riscv32.pre_dec_last x y) := only_outer (by named h) _ _ _
theorem only_enc (x y) : Only ok (Riscv32.enc x y) := only_bind (only_pure _) fun _ => only_bind (only_pre_enc h _ _) fun _ => only_bitxor h _ _
theorem only_dec (x y) : Only ok (Riscv32.dec x y) := only_bind (only_pure _) fun _ => only_bind (only_pre_dec h _ _) fun _ => only_bitxor h _ _
theorem only_sub_word (x y) : Only ok (Riscv32.sub_word x y) := only_inner (by named h) _ _ _ _ _ _
theorem only_first {n : Nat} (c : Vector U32 n) (i j r) : Only ok (Riscv32.first c i j r) := by
  unfold Riscv32.first; only_rules; exact only_sub_word h _ _
theorem only_first_256 {n : Nat} (c : Vector U32 n) (i j r) : Only ok (Riscv32.first_256 c i j r) := by
  unfold Riscv32.first_256; only_rules; exact only_sub_word h _ _
theorem only_fifth {n : Nat} (c : Vector U32 n) (i j) : Only ok (Riscv32.fifth c i j) := by
  unfold Riscv32.fifth; only_rules; exact only_sub_word h _ _
theorem only : OnlyBlock ok Block where
  vec :=
    { new := only_new h
      from_bytes := only_new h
      store_to := fun x d => only_bind (only_assert _) fun _ => only_rawWrite _ _
      zero := only_pure _
      is_zero := fun x => by show Only ok (Riscv32.is_zero x); unfold Riscv32.is_zero; only_rules
      eq := fun x y => only_andAlso (only_eqw _ _) (only_andAlso (only_eqw _ _) (only_andAlso (only_eqw _ _) (only_eqw _ _)))
      bitand := fun x y => by show Only ok (Riscv32.bitand x y); unfold Riscv32.bitand; only_rules
      bitor := fun x y => by show Only ok (Riscv32.bitor x y); unfold Riscv32.bitor; only_rules
      bitxor := only_bitxor h
      not := fun x => by show Only ok (Riscv32.not x); unfold Riscv32.not; only_rules
      enc := only_enc h
      dec := only_dec h
      enc_last := fun x y => only_bind (only_pure _) fun _ => only_bind (only_pre_enc_last h _ _) fun _ => only_bitxor h _ _
      dec_last := fun x y => only_bind (only_pure _) fun _ => only_bind (only_pre_dec_last h _ _) fun _ => only_bitxor h _ _
      pre := fun p hp x y => by cases hp; exact ⟨only_pre_enc h x y, only_pre_dec h x y⟩ }
  mc := fun x => only_bind (only_pure _) fun _ => only_bind (only_pre_dec_last h _ _) fun _ => only_bind (only_pure _) fun _ => only_enc h _ _
  imc := fun x => only_bind (only_pure _) fun _ => only_bind (only_pre_enc_last h _ _) fun _ => only_bind (only_pure _) fun _ => only_dec h _ _
  keygen_128 := fun k => only_bind (Columns.only_128 (only_first h) _ _) fun _ => only_quiet _
  keygen_192 := fun k => only_bind (Columns.only_192 (only_first h) _ _) fun _ => only_quiet _
  keygen_256 := fun k => only_bind (Columns.only_256 (only_first_256 h) (only_fifth h) (only_first h) _ _) fun _ => only_quiet _
end Riscv32
end Aes.Leak
