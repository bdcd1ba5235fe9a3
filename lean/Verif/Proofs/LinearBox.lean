import Verif.Spec.Linear
import Verif.Proofs.Field
import Mathlib.Tactic.Ring
import Mathlib.Algebra.BigOperators.Group.Finset.Basic
/-! Linear approximations of a byte and of the S-box. -/
namespace AesSpec.Linear
open Fips197
open scoped BigOperators

/-- The parity of the bits of `x` that `a` selects. -/
def par (a x : Byte) : Bool :=
  (a.getLsbD 0 && x.getLsbD 0) ^^ (a.getLsbD 1 && x.getLsbD 1) ^^ (a.getLsbD 2 && x.getLsbD 2) ^^ (a.getLsbD 3 && x.getLsbD 3) ^^
  (a.getLsbD 4 && x.getLsbD 4) ^^ (a.getLsbD 5 && x.getLsbD 5) ^^ (a.getLsbD 6 && x.getLsbD 6) ^^ (a.getLsbD 7 && x.getLsbD 7)
def sgn (b : Bool) : ℤ := if b then -1 else 1
/-- The same as a sign. -/
def eps (a x : Byte) : ℤ := sgn (par a x)

theorem sgn_xor (a b : Bool) : sgn (a ^^ b) = sgn a * sgn b := by cases a <;> cases b <;> rfl
theorem sgn_sq (a : Bool) : sgn a * sgn a = 1 := by cases a <;> rfl
theorem xor4 {l p q a b : Bool} (h : l = (p ^^ q)) : (l ^^ (a ^^ b)) = ((p ^^ a) ^^ (q ^^ b)) := by
  subst h; cases p <;> cases q <;> cases a <;> cases b <;> rfl
theorem par_xor (a b x : Byte) : par (a ^^^ b) x = (par a x ^^ par b x) := by
  simp only [par, BitVec.getLsbD_xor, Bool.and_xor_distrib_right]
  exact xor4 (xor4 (xor4 (xor4 (xor4 (xor4 (xor4 rfl))))))
theorem par_comm (a x : Byte) : par a x = par x a := by
  simp only [par, Bool.and_comm]
theorem par_xor_right (a x y : Byte) : par a (x ^^^ y) = (par a x ^^ par a y) := by
  rw [par_comm, par_xor, par_comm x, par_comm y]
theorem eps_comm (a x : Byte) : eps a x = eps x a := by rw [eps, par_comm, eps]
theorem eps_xor (a b x : Byte) : eps (a ^^^ b) x = eps a x * eps b x := by rw [eps, par_xor, sgn_xor]; rfl
theorem eps_xor_right (a x y : Byte) : eps a (x ^^^ y) = eps a x * eps a y := by rw [eps, par_xor_right, sgn_xor]; rfl
theorem eps_zero (x : Byte) : eps 0#8 x = 1 := by simp [eps, par, sgn]
theorem eps_zero_right (x : Byte) : eps x 0#8 = 1 := by rw [eps_comm, eps_zero]
theorem eps_sq (a x : Byte) : eps a x * eps a x = 1 := sgn_sq _
theorem eps_abs (a x : Byte) : (eps a x).natAbs = 1 := by unfold eps sgn; cases par a x <;> rfl

/-- Some byte has odd parity, for a mask that is not zero. -/
theorem exists_odd : ∀ a : Byte, a ≠ 0#8 → ∃ y, par a y = true := by
  have : ∀ a : Fin 256, BitVec.ofFin a ≠ 0#8 → ∃ i : Fin 8, par (BitVec.ofFin a) (1#8 <<< i.val) = true := by decide +kernel
  intro a h
  obtain ⟨i, hi⟩ := this a.toFin h
  exact ⟨_, hi⟩
theorem exists_eps {a : Byte} (h : a ≠ 0#8) : ∃ y, eps a y = -1 := by
  obtain ⟨y, hy⟩ := exists_odd a h
  exact ⟨y, by rw [eps, hy]; rfl⟩

/-- Adding a byte permutes the bytes. -/
def xorEquiv (y : Byte) : Byte ≃ Byte where
  toFun x := x ^^^ y
  invFun x := x ^^^ y
  left_inv x := by show x ^^^ y ^^^ y = x; rw [BitVec.xor_assoc, BitVec.xor_self, BitVec.xor_zero]
  right_inv x := by show x ^^^ y ^^^ y = x; rw [BitVec.xor_assoc, BitVec.xor_self, BitVec.xor_zero]

theorem card_byte : Fintype.card Byte = 256 := by
  rw [Fintype.card_congr (⟨BitVec.toFin, BitVec.ofFin, fun _ => rfl, fun _ => rfl⟩ : Byte ≃ Fin (2 ^ 8)), Fintype.card_fin]
  rfl

theorem sum_eps {a : Byte} (h : a ≠ 0#8) : ∑ x : Byte, eps a x = 0 := by
  obtain ⟨y, hy⟩ := exists_eps h
  have h1 : ∑ x : Byte, eps a x = ∑ x : Byte, eps a (x ^^^ y) := (Equiv.sum_comp (xorEquiv y) _).symm
  simp only [eps_xor_right, hy, mul_neg, _root_.mul_one, Finset.sum_neg_distrib] at h1
  omega
theorem sum_eps_zero : ∑ x : Byte, eps 0#8 x = 256 := by
  simp only [eps_zero, Finset.sum_const, Finset.card_univ, card_byte]
  rfl

/-- Every byte is the sum of its bits. -/
theorem bits_sum : ∀ a : Byte, a = (if a.getLsbD 0 then 1#8 else 0#8) ^^^ (if a.getLsbD 1 then 2#8 else 0#8) ^^^ (if a.getLsbD 2 then 4#8 else 0#8) ^^^
    (if a.getLsbD 3 then 8#8 else 0#8) ^^^ (if a.getLsbD 4 then 16#8 else 0#8) ^^^ (if a.getLsbD 5 then 32#8 else 0#8) ^^^
    (if a.getLsbD 6 then 64#8 else 0#8) ^^^ (if a.getLsbD 7 then 128#8 else 0#8) := by
  have : ∀ n : Fin 256, let a : Byte := BitVec.ofFin n
    a = (if a.getLsbD 0 then 1#8 else 0#8) ^^^ (if a.getLsbD 1 then 2#8 else 0#8) ^^^ (if a.getLsbD 2 then 4#8 else 0#8) ^^^
    (if a.getLsbD 3 then 8#8 else 0#8) ^^^ (if a.getLsbD 4 then 16#8 else 0#8) ^^^ (if a.getLsbD 5 then 32#8 else 0#8) ^^^
    (if a.getLsbD 6 then 64#8 else 0#8) ^^^ (if a.getLsbD 7 then 128#8 else 0#8) := by decide +kernel
  exact fun a => this a.toFin

/-- The byte with the given bits. -/
def ofBits (b : Fin 8 → Bool) : Byte :=
  (if b 0 then 1#8 else 0#8) ^^^ (if b 1 then 2#8 else 0#8) ^^^ (if b 2 then 4#8 else 0#8) ^^^ (if b 3 then 8#8 else 0#8) ^^^
  (if b 4 then 16#8 else 0#8) ^^^ (if b 5 then 32#8 else 0#8) ^^^ (if b 6 then 64#8 else 0#8) ^^^ (if b 7 then 128#8 else 0#8)

theorem par_basis (a : Byte) : par a 1#8 = a.getLsbD 0 ∧ par a 2#8 = a.getLsbD 1 ∧ par a 4#8 = a.getLsbD 2 ∧ par a 8#8 = a.getLsbD 3 ∧
    par a 16#8 = a.getLsbD 4 ∧ par a 32#8 = a.getLsbD 5 ∧ par a 64#8 = a.getLsbD 6 ∧ par a 128#8 = a.getLsbD 7 := by
  have : ∀ n : Fin 256, let a : Byte := BitVec.ofFin n
    par a 1#8 = a.getLsbD 0 ∧ par a 2#8 = a.getLsbD 1 ∧ par a 4#8 = a.getLsbD 2 ∧ par a 8#8 = a.getLsbD 3 ∧
    par a 16#8 = a.getLsbD 4 ∧ par a 32#8 = a.getLsbD 5 ∧ par a 64#8 = a.getLsbD 6 ∧ par a 128#8 = a.getLsbD 7 := by decide +kernel
  exact this a.toFin

theorem ofBits_basis (b : Fin 8 → Bool) : par (ofBits b) 1#8 = b 0 ∧ par (ofBits b) 2#8 = b 1 ∧ par (ofBits b) 4#8 = b 2 ∧ par (ofBits b) 8#8 = b 3 ∧
    par (ofBits b) 16#8 = b 4 ∧ par (ofBits b) 32#8 = b 5 ∧ par (ofBits b) 64#8 = b 6 ∧ par (ofBits b) 128#8 = b 7 := by
  simp only [ofBits]
  generalize b 0 = b0, b 1 = b1, b 2 = b2, b 3 = b3, b 4 = b4, b 5 = b5, b 6 = b6, b 7 = b7
  revert b0 b1 b2 b3 b4 b5 b6 b7
  decide +kernel

/-- Every additive sign of a byte is the parity of some mask. -/
theorem byte_hom (h : Byte → Bool) (hx : ∀ x y, h (x ^^^ y) = (h x ^^ h y)) : ∃ a, ∀ x, h x = par a x := by
  have h0 : h 0#8 = false := by
    have := hx 0#8 0#8
    rw [BitVec.xor_self, Bool.xor_self] at this
    exact this
  obtain ⟨p0, p1, p2, p3, p4, p5, p6, p7⟩ := ofBits_basis ![h 1#8, h 2#8, h 4#8, h 8#8, h 16#8, h 32#8, h 64#8, h 128#8]
  refine ⟨ofBits ![h 1#8, h 2#8, h 4#8, h 8#8, h 16#8, h 32#8, h 64#8, h 128#8], fun x => ?_⟩
  generalize ofBits ![h 1#8, h 2#8, h 4#8, h 8#8, h 16#8, h 32#8, h 64#8, h 128#8] = a at *
  have z : par a 0#8 = false := by simp [par]
  rw [bits_sum x]
  simp only [hx, par_xor_right, apply_ite h, apply_ite (par a), h0, z, p0, p1, p2, p3, p4, p5, p6, p7]
  rfl

end AesSpec.Linear
