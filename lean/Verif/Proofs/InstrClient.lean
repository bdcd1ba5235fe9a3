import Verif.Proofs.InstrHw
import Verif.Proofs.InstrSw
import Verif.Spec.Cpu
/-! Which instructions the calls of a client execute. -/
namespace Aes.Leak
open Rust Target Client
variable {ok : String → Prop}

/-- The instructions that the modules of a target can execute. -/
def names : Target → List String
  | .table | .bitslice _ => []
  | .x86 => X86.names
  | .x86Vaes => X86.names ++ NiX2.names
  | .x86Vaes512 => X86.names ++ NiX2.names ++ NiX4.names
  | .arm _ => Arm.names
  | .riscv64 => Riscv64.names
  | .riscv32 => Riscv32.names

theorem onlyBlock (t : Target) (h : ∀ n ∈ names t, ok n) : OnlyBlock ok t.Block := by
  match t with
  | .table => exact Table.only
  | .bitslice e => exact Bitslice.only
  | .x86 => exact X86.only h
  | .x86Vaes => exact X86.only fun n hn => h n (List.mem_append_left _ hn)
  | .x86Vaes512 => exact X86.only fun n hn => h n (List.mem_append_left _ (List.mem_append_left _ hn))
  | .arm b => exact Arm.only h
  | .riscv64 => exact Riscv64.only h
  | .riscv32 => exact Riscv32.only h
theorem only_default2 {B : Type} [LBlock B] (h : OnlyBlock ok B) : OnlyVec ok (DefaultX2.X2 B) := only_pair h.vec _ _ _ _ _ _ _
theorem only_default4 {X : Type} [LVec X 32] (h : OnlyVec ok X) : OnlyVec ok (DefaultX4.X4 X) := only_pair h _ _ _ _ _ _ _
theorem only_nix2 (t : Target) (ht : t = .x86Vaes ∨ t = .x86Vaes512) (h : ∀ n ∈ names t, ok n) : OnlyVec ok Aes.NiX2.X2 := by
  rcases ht with rfl | rfl
  · exact NiX2.only fun n hn => h n (List.mem_append_right _ hn)
  · exact NiX2.only fun n hn => h n (List.mem_append_left _ (List.mem_append_right _ hn))
theorem onlyX2 (t : Target) (h : ∀ n ∈ names t, ok n) : OnlyVec ok t.X2 := by
  match t with
  | .table => exact only_default2 Table.only
  | .bitslice e => exact only_default2 Bitslice.only
  | .x86 => exact only_default2 (X86.only h)
  | .x86Vaes => exact only_nix2 .x86Vaes (.inl rfl) h
  | .x86Vaes512 => exact only_nix2 .x86Vaes512 (.inr rfl) h
  | .arm b => exact only_default2 (Arm.only h)
  | .riscv64 => exact only_default2 (Riscv64.only h)
  | .riscv32 => exact only_default2 (Riscv32.only h)
theorem onlyX4 (t : Target) (h : ∀ n ∈ names t, ok n) : OnlyVec ok t.X4 := by
  match t with
  | .table => exact only_default4 (only_default2 Table.only)
  | .bitslice e => exact only_default4 (only_default2 Bitslice.only)
  | .x86 => exact only_default4 (only_default2 (X86.only h))
  | .x86Vaes => exact only_default4 (only_nix2 .x86Vaes (.inl rfl) h)
  | .x86Vaes512 => exact NiX4.only fun n hn => h n (List.mem_append_right _ hn)
  | .arm b => exact only_default4 (only_default2 (Arm.only h))
  | .riscv64 => exact only_default4 (only_default2 (Riscv64.only h))
  | .riscv32 => exact only_default4 (only_default2 (Riscv32.only h))
theorem onlyVec (t : Target) (w : Width) (h : ∀ n ∈ names t, ok n) : OnlyVec ok (t.Vec w) := by
  cases w
  · exact (onlyBlock t h).vec
  · exact onlyX2 t h
  · exact onlyX4 t h

section
variable {I : Impl}
theorem only_need {α : Type} (s : Store I) (a : Option α) {f : α → L (Obs × Store I)} (h : ∀ x, Only ok (f x)) : Only ok (need s a f) := by
  cases a with
  | none => exact only_pure _
  | some x => exact h x
theorem only_retM {α : Type} (s : Store I) {m : L α} (v) (h : Only ok m) : Only ok (retM s m v) := h
theorem only_seeM {α : Type} (s : Store I) {m : L α} (v) (h : Only ok m) : Only ok (seeM s m v) := h
theorem only_retTry {w} (s : Store I) {m : L (Except Nat (I.V w))} (h : Only ok m) : Only ok (retTry s m) := h
theorem only_setM (s : Store I) (i : Nat) {α : Type} {m : L α} (v : α → Val I) (h : Only ok m) : Only ok (setM s i m v) :=
  only_bind h fun _ => only_pure _
end

theorem only_step (t : Target) (h : ∀ n ∈ names t, ok n) (s : Store (crate t)) (c : Call) : Only ok (step t s c) := by
  have hb := onlyBlock t h
  have hv := fun w => onlyVec t w h
  cases c with
  | clone i => exact only_pure _
  | new w b => exact (hv w).new b
  | from_bytes w b => exact (hv w).from_bytes b
  | from_ref w b => exact (hv w).from_bytes b
  | try_from w b => exact (hv w).try_from b
  | zero w => exact (hv w).zero
  | default_ w => exact (hv w).zero
  | into_bytes w i => exact only_need _ _ fun x => only_seeM _ _ ((hv w).into_bytes x)
  | store_to w i d => exact only_need _ _ fun x => only_seeM _ _ ((hv w).store_to x d)
  | is_zero w i => exact only_need _ _ fun x => only_seeM _ _ ((hv w).is_zero x)
  | eq w i j => exact only_need _ _ fun x => only_need _ _ fun y => only_seeM _ _ ((hv w).eq x y)
  | bin w op i j =>
    refine only_need _ _ fun x => only_need _ _ fun y => only_retM _ _ ?_
    cases op
    · exact (hv w).bitand x y
    · exact (hv w).bitor x y
    · exact (hv w).bitxor x y
    · exact (hv w).enc x y
    · exact (hv w).dec x y
    · exact (hv w).enc_last x y
    · exact (hv w).dec_last x y
  | assign w op i j =>
    refine only_need _ _ fun x => only_need _ _ fun y => only_setM _ _ _ ?_
    cases op
    · exact (hv w).bitand x y
    · exact (hv w).bitor x y
    · exact (hv w).bitxor x y
  | not w i => exact only_need _ _ fun x => only_retM _ _ ((hv w).not x)
  | chain_enc w i ks => exact only_need _ _ fun x => only_need _ _ fun ks => only_retM _ _ ((hv w).chain_enc x ks)
  | chain_dec w i ks => exact only_need _ _ fun x => only_need _ _ fun ks => only_retM _ _ ((hv w).chain_dec x ks)
  | mc i => exact only_need _ _ fun x => only_retM _ _ (hb.mc x)
  | imc i => exact only_need _ _ fun x => only_retM _ _ (hb.imc x)
  | from_u128 n => exact hb.from_u128 n
  | into_u128 i => exact only_need _ _ fun x => only_seeM _ _ (hb.into_u128 x)
  | encFrom k key => exact hb.encFrom k key
  | decFrom k key => exact hb.decFrom k key
  | decrypter k i => exact only_need _ _ fun e => only_retM _ _ (hb.decrypter e)
  | encrypter k i => exact only_need _ _ fun e => only_retM _ _ (hb.encrypter e)
  | encrypt k w e i =>
    refine only_need _ _ fun e => only_need _ _ fun x => only_retM _ _ ?_
    cases w
    · exact hb.vec.encrypt _ e x
    · exact (onlyX2 t h).encrypt _ e x
    · exact (onlyX4 t h).encrypt _ e x
  | decrypt k w e i =>
    refine only_need _ _ fun e => only_need _ _ fun x => only_retM _ _ ?_
    cases w
    · exact hb.vec.decrypt _ e x
    · exact (onlyX2 t h).decrypt _ e x
    · exact (onlyX4 t h).decrypt _ e x
  | _ => exact only_pure _

theorem only_run (t : Target) (h : ∀ n ∈ names t, ok n) (client : Client) : ∀ n, Only ok (run t client n)
  | 0 => only_pure _
  | n + 1 => by
    refine only_bind (only_run t h client n) fun r => ?_
    cases client r.1 with
    | none => exact only_pure _
    | some c => exact only_bind (only_step t h _ c) fun _ => only_pure _

end Aes.Leak
