import Verif.Proofs.CostHw
import Verif.Proofs.CostSw
import Verif.Proofs.LeakClient
/-! The work of the calls of a client. -/
namespace Aes.Leak
open Rust Target Client AesSpec

/-- What a round in a chain saves, if the implementation has a fused round. -/
def savedOpt (t : Target) (w : Width) : Option Nat :=
  match t with
  | .arm _ | .riscv32 => some (binPrice t w .xor)
  | _ => none
theorem savedOpt_getD (t : Target) (w : Width) : (savedOpt t w).getD 0 = savedPerRound t w := by cases t <;> rfl

theorem costBlock (t : Target) : CostBlock t.Block (loadPrice t) (blockPrice t) (savedOpt t .x1) (mcPrice t) (imcPrice t) (keyPrice t .k128) (keyPrice t .k192) (keyPrice t .k256) := by
  match t with
  | .table => exact Table.cost
  | .bitslice e => exact Bitslice.cost
  | .x86 => exact X86.cost _ (.inl rfl)
  | .x86Vaes => exact X86.cost _ (.inr (.inl rfl))
  | .x86Vaes512 => exact X86.cost _ (.inr (.inr rfl))
  | .arm b => exact Arm.cost
  | .riscv64 => exact Riscv64.cost
  | .riscv32 => exact Riscv32.cost
theorem CostVec.of_eq {T : Type} {n : Nat} [LVec T n] {ld ld' : Nat} {p p' : BinOp → Nat} {s s' : Option Nat} (h : CostVec T ld p s) (e0 : ld = ld') (e1 : ∀ op, p op = p' op)
    (e2 : s = s') : CostVec T ld' p' s' := by
  obtain rfl : p = p' := funext e1
  exact e0 ▸ e2 ▸ h
theorem cost_default2 {B : Type} [LBlock B] {ld p s} (h : CostVec B ld p s) : CostVec (DefaultX2.X2 B) (2 * ld) (fun op => 2 * p op) (s.map (2 * ·)) := cost_pair h _ _ _ _ _ _ _
theorem cost_default4 {X : Type} [LVec X 32] {ld p s} (h : CostVec X ld p s) : CostVec (DefaultX4.X4 X) (2 * ld) (fun op => 2 * p op) (s.map (2 * ·)) := cost_pair h _ _ _ _ _ _ _
theorem costX2 (t : Target) : CostVec t.X2 (passes t .x2 * loadPrice t) (binPrice t .x2) (savedOpt t .x2) := by
  match t with
  | .table => exact cost_default2 (costBlock .table).vec
  | .bitslice e => exact cost_default2 (costBlock (.bitslice e)).vec
  | .x86 => exact cost_default2 (costBlock .x86).vec
  | .x86Vaes => exact NiX2.cost
  | .x86Vaes512 => exact NiX2.cost
  | .arm b => exact cost_default2 (costBlock (.arm b)).vec
  | .riscv64 => exact cost_default2 (costBlock .riscv64).vec
  | .riscv32 => exact cost_default2 (costBlock .riscv32).vec
theorem four (t : Target) (op : BinOp) : 2 * (2 * blockPrice t op) = 4 * blockPrice t op := by omega
theorem costX4 (t : Target) : CostVec t.X4 (passes t .x4 * loadPrice t) (binPrice t .x4) (savedOpt t .x4) := by
  match t with
  | .table => exact (cost_default4 (costX2 .table)).of_eq rfl (four _) rfl
  | .bitslice e => exact (cost_default4 (costX2 (.bitslice e))).of_eq rfl (four _) rfl
  | .x86 => exact (cost_default4 (costX2 .x86)).of_eq rfl (four _) rfl
  | .x86Vaes => exact (cost_default4 NiX2.cost).of_eq rfl (fun _ => rfl) rfl
  | .x86Vaes512 => exact NiX4.cost
  | .arm b => exact (cost_default4 (costX2 (.arm b))).of_eq rfl (four _) rfl
  | .riscv64 => exact (cost_default4 (costX2 .riscv64)).of_eq rfl (four _) rfl
  | .riscv32 => exact (cost_default4 (costX2 .riscv32)).of_eq rfl (four _) rfl
theorem costVec (t : Target) (w : Width) : CostVec (t.Vec w) (passes t w * loadPrice t) (binPrice t w) (savedOpt t w) := by
  cases w with
  | x1 => exact (costBlock t).vec.of_eq (Nat.one_mul _).symm (fun _ => (Nat.one_mul _).symm) rfl
  | x2 => exact costX2 t
  | x4 => exact costX4 t

/-- If the call returns, it has done `k` units of work. -/
def StepCosts {I : Impl} (m : L (Obs × Store I)) (k : Nat) : Prop := ∀ s', m.out = .ok (.done, s') → totalWork m.trace = k
section
variable {I : Impl} {k : Nat}
theorem stepCosts_need {α : Type} (s : Store I) (a : Option α) {f : α → L (Obs × Store I)} (h : ∀ x, a = some x → StepCosts (f x) k) : StepCosts (need s a f) k := by
  cases a with
  | none => exact fun _ h => by cases h
  | some x => exact h x rfl
theorem stepCosts_retM {α : Type} (s : Store I) {m : L α} (v) (h : Costs m k) : StepCosts (retM s m v) k := by
  intro s' hs
  cases hm : m.out with
  | ok a => exact h a hm
  | error e =>
    unfold retM at hs
    rw [hm] at hs
    cases hs
theorem stepCosts_setM (s : Store I) (i : Nat) {α : Type} {m : L α} (v : α → Val I) (h : Costs m k) : StepCosts (setM s i m v) k := fun s' hs =>
  ((costs_bind k h fun _ => costs_pure _) _ hs).trans (Nat.zero_add k)
theorem vecs_length (s : Store I) (w : Width) : ∀ (l : List Nat) (xs : List (I.V w)), s.vecs? w l = some xs → xs.length = l.length
  | [], xs, h => by obtain rfl : [] = xs := Option.some.inj h; rfl
  | i :: l, xs, h => by
    unfold Store.vecs? at h
    split at h
    · rename_i x ys hx hy
      obtain rfl : x :: ys = xs := Option.some.inj h
      simp [vecs_length s w l ys hy]
    · cases h
end

theorem step_costs (t : Target) (s : Store (crate t)) (c : Call) (k : Nat) (hk : price t c = some k) : StepCosts (step t s c) k := by
  have hb := costBlock t
  have hv := fun w => costVec t w
  cases c with
  | new w b => cases hk; exact stepCosts_retM _ _ ((hv w).new b)
  | bin w op i j =>
    cases hk
    refine stepCosts_need _ _ fun x _ => stepCosts_need _ _ fun y _ => stepCosts_retM _ _ ?_
    cases op
    · exact (hv w).bitand x y
    · exact (hv w).bitor x y
    · exact (hv w).bitxor x y
    · exact (hv w).enc x y
    · exact (hv w).dec x y
    · exact (hv w).enc_last x y
    · exact (hv w).dec_last x y
  | assign w op i j =>
    cases hk
    refine stepCosts_need _ _ fun x _ => stepCosts_need _ _ fun y _ => stepCosts_setM _ _ _ ?_
    cases op
    · exact (hv w).bitand x y
    · exact (hv w).bitor x y
    · exact (hv w).bitxor x y
  | not w i => cases hk; exact stepCosts_need _ _ fun x _ => stepCosts_retM _ _ ((hv w).not x)
  | chain_enc w i ks =>
    cases hk
    refine stepCosts_need _ _ fun x _ => stepCosts_need _ _ fun ks' hks => stepCosts_retM _ _ (((hv w).chain_enc x ks').of_eq ?_)
    rw [savedOpt_getD, show List.length (α := t.Vec w) ks' = ks.length from vecs_length _ _ _ _ hks]; rfl
  | chain_dec w i ks =>
    cases hk
    refine stepCosts_need _ _ fun x _ => stepCosts_need _ _ fun ks' hks => stepCosts_retM _ _ (((hv w).chain_dec x ks').of_eq ?_)
    rw [savedOpt_getD, show List.length (α := t.Vec w) ks' = ks.length from vecs_length _ _ _ _ hks]; rfl
  | mc i => cases hk; exact stepCosts_need _ _ fun x _ => stepCosts_retM _ _ (hb.mc x)
  | imc i => cases hk; exact stepCosts_need _ _ fun x _ => stepCosts_retM _ _ (hb.imc x)
  | encFrom k key =>
    cases hk
    refine stepCosts_retM _ _ ?_
    cases k
    · exact (costs_bind _ (hb.keygen_128 key) fun _ => costs_pure _).of_eq (Nat.zero_add _)
    · exact (costs_bind _ (hb.keygen_192 key) fun _ => costs_pure _).of_eq (Nat.zero_add _)
    · exact (costs_bind _ (hb.keygen_256 key) fun _ => costs_pure _).of_eq (Nat.zero_add _)
  | decFrom k key =>
    cases hk
    refine stepCosts_retM _ _ ?_
    cases k
    · exact (costs_bind _ ((costs_bind _ (hb.keygen_128 key) fun _ => costs_pure _).of_eq (Nat.zero_add _)) fun _ => hb.decrypter _).of_eq (Nat.add_comm ..)
    · exact (costs_bind _ ((costs_bind _ (hb.keygen_192 key) fun _ => costs_pure _).of_eq (Nat.zero_add _)) fun _ => hb.decrypter _).of_eq (Nat.add_comm ..)
    · exact (costs_bind _ ((costs_bind _ (hb.keygen_256 key) fun _ => costs_pure _).of_eq (Nat.zero_add _)) fun _ => hb.decrypter _).of_eq (Nat.add_comm ..)
  | decrypter k i => cases hk; exact stepCosts_need _ _ fun e _ => stepCosts_retM _ _ (hb.decrypter e)
  | encrypter k i => cases hk; exact stepCosts_need _ _ fun e _ => stepCosts_retM _ _ (hb.encrypter e)
  | encrypt k w e i =>
    cases hk
    refine stepCosts_need _ _ fun e _ => stepCosts_need _ _ fun x _ => stepCosts_retM _ _ ?_
    unfold chainPrice
    rw [← savedOpt_getD]
    cases w
    · exact (hv .x1).encrypt _ e x
    · exact (hv .x2).encrypt _ e x
    · exact (hv .x4).encrypt _ e x
  | decrypt k w e i =>
    cases hk
    refine stepCosts_need _ _ fun e _ => stepCosts_need _ _ fun x _ => stepCosts_retM _ _ ?_
    unfold chainPrice
    rw [← savedOpt_getD]
    cases w
    · exact (hv .x1).decrypt _ e x
    · exact (hv .x2).decrypt _ e x
    · exact (hv .x4).decrypt _ e x
  | _ => cases hk
end Aes.Leak
