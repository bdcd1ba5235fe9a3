import Verif.Proofs.LinearBox
/-! The best linear approximation of the S-box. For masks `a`, `b`, the 256 bits `a·x + b·SBOX(x)` are packed into one number, nine binary
digits each, so that addition of masks is `xor` of numbers and the number of ones is the remainder modulo 511. -/
namespace AesSpec.Linear
open Fips197
open scoped BigOperators

/-- A list of bits, nine binary digits each. -/
def packL : List Bool → Nat
  | [] => 0
  | b :: l => 512 * packL l + b.toNat

theorem pack_step (m n : Nat) (b c : Bool) : (512 * m + b.toNat) ^^^ (512 * n + c.toNat) = 512 * (m ^^^ n) + (b ^^ c).toNat := by
  apply Nat.eq_of_testBit_eq
  intro i
  have e (k : Nat) (d : Bool) : (512 * k + d.toNat).testBit i = if i < 9 then d.toNat.testBit i else k.testBit (i - 9) :=
    Nat.testBit_two_pow_mul_add (i := 9) k (by cases d <;> decide) i
  rw [Nat.testBit_xor, e, e, e]
  by_cases h : i < 9
  · rw [if_pos h, if_pos h, if_pos h, ← Nat.testBit_xor]
    congr 1
    cases b <;> cases c <;> rfl
  · rw [if_neg h, if_neg h, if_neg h, Nat.testBit_xor]

theorem packL_xor : ∀ (l l' : List Bool), l.length = l'.length → packL l ^^^ packL l' = packL (List.zipWith xor l l')
  | [], [], _ => rfl
  | b :: l, c :: l', h => by
    simp only [packL, List.zipWith_cons_cons, pack_step, packL_xor l l' (by simpa using h)]

theorem packL_mod : ∀ l : List Bool, packL l % 511 = l.countP id % 511
  | [] => rfl
  | b :: l => by
    have := packL_mod l
    rw [packL, List.countP_cons]
    cases b <;> simp only [Bool.toNat, cond, id] <;> simp <;> omega

/-- The bits `a·x + b·SBOX(x)`. -/
def bitsOf (a b : Byte) : List Bool := (List.finRange 256).map fun n => par a (BitVec.ofFin n) ^^ par b (sbox (BitVec.ofFin n))
def pack (a b : Byte) : Nat := packL (bitsOf a b)

theorem pack_xor (a b a' b' : Byte) : pack (a ^^^ a') (b ^^^ b') = pack a b ^^^ pack a' b' := by
  unfold pack
  rw [packL_xor _ _ (by simp [bitsOf])]
  congr 1
  unfold bitsOf
  rw [List.zipWith_map, List.zipWith_self]
  refine List.map_congr_left fun n _ => ?_
  rw [par_xor, par_xor]
  exact xor4 rfl

theorem pack_zero : pack 0#8 0#8 = 0 := by
  have := pack_xor 0#8 0#8 0#8 0#8
  rw [Nat.xor_self] at this
  exact this

/-- The packed bits of the masks with one bit. -/
def basis : List Nat := [
  0x8000200008000200008000200008000200008000200008000200008000200008000200008000200008000200008000200008000200008000200008000200008000200008000200008000200008000200008000200008000200008000200008000200008000200008000200008000200008000200008000200008000200008000200008000200008000200008000200008000200008000200008000200008000200008000200008000200008000200008000200008000200008000200008000200008000200008000200008000200008000200008000200008000200008000200008000200008000200008000200008000200008000200008000200008000200008000200008000200008000200008000200008000200008000200008000200,
  0x8040000008040000008040000008040000008040000008040000008040000008040000008040000008040000008040000008040000008040000008040000008040000008040000008040000008040000008040000008040000008040000008040000008040000008040000008040000008040000008040000008040000008040000008040000008040000008040000008040000008040000008040000008040000008040000008040000008040000008040000008040000008040000008040000008040000008040000008040000008040000008040000008040000008040000008040000008040000008040000008040000008040000008040000008040000008040000008040000008040000008040000008040000008040000008040000,
  0x8040201000000000008040201000000000008040201000000000008040201000000000008040201000000000008040201000000000008040201000000000008040201000000000008040201000000000008040201000000000008040201000000000008040201000000000008040201000000000008040201000000000008040201000000000008040201000000000008040201000000000008040201000000000008040201000000000008040201000000000008040201000000000008040201000000000008040201000000000008040201000000000008040201000000000008040201000000000008040201000000000008040201000000000008040201000000000008040201000000000008040201000000000008040201000000000,
  0x8040201008040201000000000000000000008040201008040201000000000000000000008040201008040201000000000000000000008040201008040201000000000000000000008040201008040201000000000000000000008040201008040201000000000000000000008040201008040201000000000000000000008040201008040201000000000000000000008040201008040201000000000000000000008040201008040201000000000000000000008040201008040201000000000000000000008040201008040201000000000000000000008040201008040201000000000000000000008040201008040201000000000000000000008040201008040201000000000000000000008040201008040201000000000000000000,
  0x8040201008040201008040201008040201000000000000000000000000000000000000008040201008040201008040201008040201000000000000000000000000000000000000008040201008040201008040201008040201000000000000000000000000000000000000008040201008040201008040201008040201000000000000000000000000000000000000008040201008040201008040201008040201000000000000000000000000000000000000008040201008040201008040201008040201000000000000000000000000000000000000008040201008040201008040201008040201000000000000000000000000000000000000008040201008040201008040201008040201000000000000000000000000000000000000,
  0x8040201008040201008040201008040201008040201008040201008040201008040201000000000000000000000000000000000000000000000000000000000000000000000000008040201008040201008040201008040201008040201008040201008040201008040201000000000000000000000000000000000000000000000000000000000000000000000000008040201008040201008040201008040201008040201008040201008040201008040201000000000000000000000000000000000000000000000000000000000000000000000000008040201008040201008040201008040201008040201008040201008040201008040201000000000000000000000000000000000000000000000000000000000000000000000000,
  0x8040201008040201008040201008040201008040201008040201008040201008040201008040201008040201008040201008040201008040201008040201008040201008040201000000000000000000000000000000000000000000000000000000000000000000000000000000000000000000000000000000000000000000000000000000000000000000000000008040201008040201008040201008040201008040201008040201008040201008040201008040201008040201008040201008040201008040201008040201008040201008040201000000000000000000000000000000000000000000000000000000000000000000000000000000000000000000000000000000000000000000000000000000000000000000000000,
  0x8040201008040201008040201008040201008040201008040201008040201008040201008040201008040201008040201008040201008040201008040201008040201008040201008040201008040201008040201008040201008040201008040201008040201008040201008040201008040201008040201008040201008040201008040201008040201008040201000000000000000000000000000000000000000000000000000000000000000000000000000000000000000000000000000000000000000000000000000000000000000000000000000000000000000000000000000000000000000000000000000000000000000000000000000000000000000000000000000000000000000000000000000000000000000000000000,
  0x40000008040201000000001008040200008000200008040001000000201008000001000040200008040201000000200000040000000040201008000200000000000000040000000000001000000000008000201008040001008000201000000200000000001000000000008040000000000000000000000000040200008040200008000200008000201000040001000040200008000000008000200008000201000040000008000201008040201008000200008000000008000200008040000008000201000040201008000200000000001000000201008000201000000001000040000008040200008040001008040200000040200000040201000000000008000001000040200008040000000040200008040200008040200008040001,
  0x8040000008000000000040201000000000008000001000040201000040000000000000008000001000040000008040200008000200008040001008000000008000200008000001000040200008000200000040000000040001000000000008000201000000200008040200008040201000000201000000201000040000008000000000040200008000201000040000008040200000040200000000001008000200000040000008040000000040001008040200008000001000040201008000000000000001000040200008040201000040201008000200000040201008000201008000200008040200000000000000000000000040201008040001000040000008040000000040001000000201008040201008040000000040201008040001,
  0x8000200008040000000000201008000001008000201000040200008040000000000000008040001000040200008040000008040200000000200008040200008040201008040000000040001000040201000040201008040001000040200000040000008040200000000000000000201008000201000000000008040000000000201008040201008040201008000201000000200000000201008000200008000000000040200008000001008000200000000200008000200000040000000000200008000000008040000000040000000000200000040000008000200000000001000040200000000201008000000000040201008040201008000201000000201008000201000040000008000000008000201000040000008040000000040200,
  0x40000008040200008000001008040001008040001008000201000040201000040200008040000008000000008000001000000200008040201008000201000000001008000201008040200008000001008040001008000200008000000000040000008000001008040000008040201000040200008000200008040000000040200008040000000000001008000201000000200000040001000040200008000000008040200008000200000000200008040200008040201008040201008000200008000000000040001000000200000040201008040001000000001000000000008000001000000000000000200000000000008000200000000200000000001008000001000000201008040001000040001008000000000040200008000200,
  0x8040201000000200000000001000000000008000200000000201008000200008040200008040000008040200000040000000040201000000200008040200000040001000000201000000200000040200000000200000040000008000201000000200008000000000040200008000201008040000000040000008000000008040200008040000008000201000040000008040201000040201008040201000000001000040201008000200000040000008000001000040000008040000008040200000000201000000000008040201000040001008000000008040000000000200008000201000000000008040201008000001000040201000040201000040001000000200008000201008000000008000201000000001000000001008040200,
  0x40001000040000008000201000000200000040000008000000000000001000000201000000000008000201000040000008040201000000200000040001000040200008040201000040201008040001008000000008040001008040000008040000000040000000040201000000000000040200000000201000000001008000001008040200000000000008000000000040200008000201008040000000000200008000200008000200000040000008040200000000000008040001000040201008000000000040201008000200008000200000040000008040201008000000000000000000040000000040001008040201000040201008000201000040200008040001008000001008000000008040001008040001000040201008040201,
  0x200000000001008040200000000000008000201008000000000000201000000201000000200000040001000040001008000001000000001000040201008000000000000200000000201008040201000040200008000201008040000008000201008000001000000001008000201000000201000000000008040001008000201000040001000040001008000001008040200000040000008000000000040001000000001008000201000000201008000201008040201000000201008000200008000201000000200000040001000040200000000000008000001008000000000000000008000200000000201008040000008040000000000200008040000000000200008040201008040001008000201000040000008040201008040201,
  0x40001000000200000000201000040201008000001008040001008040200000040201008000201008000000000040000000040000008040200000000201008040200000000001000040000008040000008000201000000201000040201000040201000000000000000001008000001000040200008040000008000200000000000000000201000000200008000001008040200000040201008000201008000200008040000000000200008000000008040201008000000000040200000040200008000200008000200008040000008000000000000200000040001008040000008000200008000200000000200008040200008040000000040201008000201008040201008000001000040201000040201000000000008000001000000000]

set_option maxRecDepth 20000 in
theorem basis_eq : basis = [pack 1#8 0#8, pack 2#8 0#8, pack 4#8 0#8, pack 8#8 0#8, pack 16#8 0#8, pack 32#8 0#8, pack 64#8 0#8, pack 128#8 0#8,
    pack 0#8 1#8, pack 0#8 2#8, pack 0#8 4#8, pack 0#8 8#8, pack 0#8 16#8, pack 0#8 32#8, pack 0#8 64#8, pack 0#8 128#8] := by
  decide +kernel

/-- Number of ones between 112 and 144. -/
def leaf (p : Nat) : Bool := Nat.ble 112 (p % 511) && Nat.ble (p % 511) 144
/-- All sums of the list, added to `acc`, except the empty one if `nz` is false. -/
def go : List Nat → Nat → Bool → Bool
  | [], acc, nz => !nz || leaf acc
  | b :: l, acc, nz => go l acc nz && go l (acc ^^^ b) true

theorem go_basis : go basis 0 false = true := by decide +kernel

/-- The sum of the chosen members. -/
def choose : List Nat → List Bool → Nat
  | b :: l, s :: t => (if s then b else 0) ^^^ choose l t
  | _, _ => 0

theorem go_sound : ∀ (l : List Nat) (acc : Nat) (nz : Bool), go l acc nz = true → ∀ s : List Bool, s.length = l.length → (nz || s.any id) = true →
    leaf (acc ^^^ choose l s) = true
  | [], acc, nz, h, [], _, hz => by
    simp only [List.any_nil, Bool.or_false] at hz
    subst hz
    simpa [go, choose] using h
  | b :: l, acc, nz, h, c :: s, hl, hz => by
    simp only [go, Bool.and_eq_true] at h
    simp only [List.length_cons, Nat.add_right_cancel_iff] at hl
    cases c with
    | false =>
      have := go_sound l acc nz h.1 s hl (by simpa using hz)
      simpa [choose] using this
    | true =>
      have := go_sound l _ true h.2 s hl (by simp)
      simpa [choose, Nat.xor_assoc] using this

def bits8 (a : Byte) : List Bool :=
  [a.getLsbD 0, a.getLsbD 1, a.getLsbD 2, a.getLsbD 3, a.getLsbD 4, a.getLsbD 5, a.getLsbD 6, a.getLsbD 7]

theorem pack_left (a a' : Byte) : pack (a ^^^ a') 0#8 = pack a 0#8 ^^^ pack a' 0#8 := pack_xor a 0#8 a' 0#8
theorem pack_right (b b' : Byte) : pack 0#8 (b ^^^ b') = pack 0#8 b ^^^ pack 0#8 b' := pack_xor 0#8 b 0#8 b'

theorem pack_choose (a b : Byte) : pack a b = choose basis (bits8 a ++ bits8 b) := by
  have h : pack a b = pack a 0#8 ^^^ pack 0#8 b := by
    have := pack_xor a 0#8 0#8 b
    rwa [BitVec.xor_zero, BitVec.zero_xor] at this
  have e1 (c : Bool) (x : Byte) : pack (if c then x else 0#8) 0#8 = if c then pack x 0#8 else 0 := by
    cases c
    · exact pack_zero
    · rfl
  have e2 (c : Bool) (x : Byte) : pack 0#8 (if c then x else 0#8) = if c then pack 0#8 x else 0 := by
    cases c
    · exact pack_zero
    · rfl
  rw [h, basis_eq]
  conv => lhs; rw [bits_sum a, bits_sum b]
  simp only [pack_left, pack_right, e1, e2, bits8, List.cons_append, List.nil_append, choose, Nat.xor_zero, Nat.xor_assoc]

theorem bits8_any {a : Byte} (h : a ≠ 0#8) : (bits8 a).any id = true := by
  have : ∀ n : Fin 256, BitVec.ofFin n ≠ 0#8 → (bits8 (BitVec.ofFin n)).any id = true := by decide +kernel
  exact this a.toFin h

/-- No sum of input and output bits of SBOX is one for fewer than 112 or more than 144 of the inputs. -/
theorem sbox_count {a b : Byte} (h : a ≠ 0#8 ∨ b ≠ 0#8) : 112 ≤ (bitsOf a b).countP id ∧ (bitsOf a b).countP id ≤ 144 := by
  have := go_sound basis 0 false go_basis (bits8 a ++ bits8 b) rfl (by
    rw [Bool.false_or, List.any_append, Bool.or_eq_true]
    exact h.imp bits8_any bits8_any)
  rw [Nat.zero_xor, ← pack_choose, leaf, Bool.and_eq_true, Nat.ble_eq, Nat.ble_eq, pack, packL_mod] at this
  have hl : (bitsOf a b).countP id ≤ 256 := by
    refine Nat.le_trans List.countP_le_length ?_
    simp [bitsOf]
  rwa [Nat.mod_eq_of_lt (by omega)] at this

theorem sum_sgn {n : Nat} (g : Fin n → Bool) : ∑ i, sgn (g i) = n - 2 * (((List.finRange n).map g).countP id : Nat) := by
  induction n with
  | zero => simp
  | succ n ih =>
    rw [Fin.sum_univ_succ, ih, List.finRange_succ, List.map_cons, List.map_map, List.countP_cons]
    have e : (List.finRange n).map (g ∘ Fin.succ) = (List.finRange n).map fun i => g i.succ := rfl
    rw [e]
    cases g 0 <;> simp [sgn] <;> omega

/-- The imbalance of an approximation of a byte function. -/
def walsh (box : Byte → Byte) (a b : Byte) : ℤ := ∑ x : Byte, eps a x * eps b (box x)

theorem walsh_fin (box : Byte → Byte) (a b : Byte) : walsh box a b = ∑ n : Fin 256, eps a (BitVec.ofFin n) * eps b (box (BitVec.ofFin n)) :=
  (Equiv.sum_comp (⟨BitVec.ofFin, BitVec.toFin, fun _ => rfl, fun _ => rfl⟩ : Fin (2 ^ 8) ≃ Byte) fun x => eps a x * eps b (box x)).symm

theorem sbox_walsh {a b : Byte} (h : a ≠ 0#8 ∨ b ≠ 0#8) : (walsh sbox a b).natAbs ≤ 32 := by
  have hc := sbox_count h
  have e : walsh sbox a b = 256 - 2 * ((bitsOf a b).countP id : Nat) := by
    rw [walsh_fin]
    have := sum_sgn fun n : Fin 256 => par a (BitVec.ofFin n) ^^ par b (sbox (BitVec.ofFin n))
    simp only [sgn_xor] at this
    exact this
  rw [e]
  omega

theorem invSbox_walsh {a b : Byte} (h : a ≠ 0#8 ∨ b ≠ 0#8) : (walsh invSbox a b).natAbs ≤ 32 := by
  have e : walsh invSbox a b = walsh sbox b a := by
    unfold walsh
    rw [← Equiv.sum_comp (⟨sbox, invSbox, invSbox_sbox, sbox_invSbox⟩ : Byte ≃ Byte)]
    refine Finset.sum_congr rfl fun x _ => ?_
    show eps a (sbox x) * eps b (invSbox (sbox x)) = _
    rw [invSbox_sbox, _root_.mul_comm]
  rw [e]
  exact sbox_walsh h.symm

end AesSpec.Linear
