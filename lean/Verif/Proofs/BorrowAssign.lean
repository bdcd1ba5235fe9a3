import Verif.Proofs.BorrowRead
/-! `*self = op(*self, rhs)` on any well-formed state. -/
namespace Aes.Borrow
open Rust AesSpec
open Store (applyAll writesAt)

theorem op_assign_left {T : Type} {n : Nat} {enc : T → Vector U8 n} {dec : Vector U8 n → T} (op : T → T → T) {σ : State} (w : σ.WellFormed) {r : Ref}
    (hn : r.len = n) (rhs : T) (st : Nat → Stack) (h : ∀ a, In r a → access σ.active .write r.tag (σ.stacks a) = some (st a)) :
    ∃ σ', op_assign enc dec op r rhs σ = .ok ((), σ') ∧ Left r st σ σ' (writesAt r.ptr (enc (op (dec (peek σ.bytes r.ptr n)) rhs)).toList) := by
  have hr : HeldR (entered σ r st) ⟨r.ptr, r.len, σ.nextTag⟩ :=
    ⟨fun a ha => ⟨[], ⟨.unique, σ.nextTag, some σ.nextCall⟩, st a, if_pos ha, rfl, rfl, fun i hi => by cases hi⟩, Nat.lt_succ_self _⟩
  obtain ⟨σ', e, p⟩ := (held_entered (σ := σ) (r := r) (st := st) w.calls).write (p := r.ptr) (enc (op (dec (peek σ.bytes r.ptr n)) rhs)) (Nat.le_refl _)
    (by show r.ptr + n ≤ r.ptr + r.len; omega)
  refine ⟨_, ?_, leave w.calls p⟩
  show (call fun c => do let r ← argument c r; (do let x ← read r.tag r.ptr n; write r.tag r.ptr (enc (op (dec x) rhs)))) σ = _
  rw [call_argument st fun a ha => (access_congr fun i hi => guarded_next w hi).trans (h a ha),
    bind_run (hr.read (Nat.le_refl _) (by show r.ptr + n ≤ r.ptr + r.len; omega))]
  show (write σ.nextTag r.ptr (enc (op (dec (peek σ.bytes r.ptr n)) rhs)) _ >>= _) = _
  rw [e]; rfl
theorem argument_ub {α : Type} {f : Ref → B α} {σ : State} (w : σ.WellFormed) {r : Ref} {a : Nat} (ha : In r a)
    (h : access σ.active .write r.tag (σ.stacks a) = none) : (call fun c => do let r ← argument c r; f r) σ = .error .ub := by
  show ((argument σ.nextCall r >>= f) _ >>= _) = _
  rw [bind_fail (e := .ub)]
  · rfl
  · unfold argument
    apply bind_fail
    unfold retag
    rw [onRange_ub ha]
    · rfl
    · show Option.map _ (access (σ.nextCall :: σ.active) .write r.tag (σ.stacks a)) = none
      rw [access_congr fun i hi => guarded_next w hi, h]; rfl
theorem op_assign_ub {T : Type} {n : Nat} {enc : T → Vector U8 n} {dec : Vector U8 n → T} (op : T → T → T) {σ : State} (w : σ.WellFormed) {r : Ref}
    (rhs : T) {a : Nat} (ha : In r a) (h : access σ.active .write r.tag (σ.stacks a) = none) : op_assign enc dec op r rhs σ = .error .ub :=
  argument_ub w ha h
end Aes.Borrow
