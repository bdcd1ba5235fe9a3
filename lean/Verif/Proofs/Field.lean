import Verif.Proofs.SpecCipher
/-
GF(2^8) as FIPS-197 defines it is a field, and inversion in it is differentially 4-uniform; hence so are SBOX and INVSBOX.
-/
namespace Fips197

theorem xor_mul (a b c : Byte) : mul (a ^^^ b) c = mul a c ^^^ mul b c := by
  have h : ∀ i, (if (a ^^^ b).getLsbD i then c else 0#8) = (if a.getLsbD i then c else 0#8) ^^^ (if b.getLsbD i then c else 0#8) := by
    intro i
    rw [BitVec.getLsbD_xor]
    cases a.getLsbD i <;> cases b.getLsbD i <;> simp
  unfold mul
  generalize List.range 8 = l
  induction l with
  | nil => simp
  | cons i l ih =>
    rw [List.foldr_cons, List.foldr_cons, List.foldr_cons, ih, xtimes_xor, h]
    ac_rfl

/-- Two additive functions that agree on the powers of two agree. -/
theorem additive_ext {f g : Byte → Byte} (hf : ∀ a b, f (a ^^^ b) = f a ^^^ f b) (hg : ∀ a b, g (a ^^^ b) = g a ^^^ g b)
    (h : ∀ i : Fin 8, f (1#8 <<< i.val) = g (1#8 <<< i.val)) (a : Byte) : f a = g a := by
  have z : ∀ {f : Byte → Byte}, (∀ a b, f (a ^^^ b) = f a ^^^ f b) → f 0#8 = 0#8 := by
    intro f hf
    have := hf 0 0
    rw [BitVec.xor_self] at this
    simpa using this
  have key : ∀ {f : Byte → Byte}, (∀ a b, f (a ^^^ b) = f a ^^^ f b) → ∀ (i : Fin 8) (b : Bool),
      f (if b then 1#8 <<< i.val else 0#8) = if b then f (1#8 <<< i.val) else 0#8 := by
    intro f hf i b
    cases b
    · exact z hf
    · rfl
  have dec : ∀ a : Byte, a = (if a.getLsbD 0 then 1#8 <<< (0 : Fin 8).val else 0#8) ^^^
      ((if a.getLsbD 1 then 1#8 <<< (1 : Fin 8).val else 0#8) ^^^
      ((if a.getLsbD 2 then 1#8 <<< (2 : Fin 8).val else 0#8) ^^^
      ((if a.getLsbD 3 then 1#8 <<< (3 : Fin 8).val else 0#8) ^^^
      ((if a.getLsbD 4 then 1#8 <<< (4 : Fin 8).val else 0#8) ^^^
      ((if a.getLsbD 5 then 1#8 <<< (5 : Fin 8).val else 0#8) ^^^
      ((if a.getLsbD 6 then 1#8 <<< (6 : Fin 8).val else 0#8) ^^^
      (if a.getLsbD 7 then 1#8 <<< (7 : Fin 8).val else 0#8))))))) := by decide +kernel
  rw [dec a]
  simp only [hf, hg, key hf, key hg, h]

theorem mul_comm (a b : Byte) : mul a b = mul b a :=
  additive_ext (f := fun a => mul a b) (g := fun a => mul b a) (fun _ _ => xor_mul _ _ _) (fun _ _ => mul_xor _ _ _)
    (fun i => additive_ext (f := fun b => mul (1#8 <<< i.val) b) (g := fun b => mul b (1#8 <<< i.val))
      (fun _ _ => mul_xor _ _ _) (fun _ _ => xor_mul _ _ _) (fun j => by revert i j; decide +kernel) b) a

theorem mul_assoc (a b c : Byte) : mul (mul a b) c = mul a (mul b c) := by
  refine additive_ext (f := fun a => mul (mul a b) c) (g := fun a => mul a (mul b c)) (fun _ _ => by simp only [xor_mul])
    (fun _ _ => xor_mul _ _ _) (fun i => ?_) a
  refine additive_ext (f := fun b => mul (mul (1#8 <<< i.val) b) c) (g := fun b => mul (1#8 <<< i.val) (mul b c))
    (fun _ _ => by simp only [xor_mul, mul_xor]) (fun _ _ => by simp only [xor_mul, mul_xor]) (fun j => ?_) b
  refine additive_ext (f := fun c => mul (mul (1#8 <<< i.val) (1#8 <<< j.val)) c)
    (g := fun c => mul (1#8 <<< i.val) (mul (1#8 <<< j.val) c))
    (fun _ _ => by simp only [mul_xor]) (fun _ _ => by simp only [mul_xor]) (fun k => ?_) c
  revert i j k; decide +kernel

theorem one_mul (a : Byte) : mul 1#8 a = a := by revert a; decide +kernel
theorem mul_one (a : Byte) : mul a 1#8 = a := by rw [mul_comm, one_mul]
theorem zero_mul (a : Byte) : mul 0#8 a = 0#8 := by rw [mul_comm, mul_zero]

theorem mul_left_cancel {a b c : Byte} (ha : a ≠ 0) (h : mul a b = mul a c) : b = c := by
  have := congrArg (mul (inv a)) h
  rw [← mul_assoc, ← mul_assoc, mul_comm (inv a), mul_inv a ha] at this
  exact (one_mul b).symm.trans (this.trans (one_mul c))

theorem mul_eq_zero {a b : Byte} (h : mul a b = 0#8) : a = 0#8 ∨ b = 0#8 := by
  by_cases ha : a = 0#8
  · exact .inl ha
  · exact .inr (mul_left_cancel ha (h.trans (mul_zero a).symm))

/-- `1/x + 1/y = c` with `x, y ≠ 0`: multiply by `xy`. -/
theorem inv_add {x y c : Byte} (hx : x ≠ 0) (hy : y ≠ 0) (h : inv x ^^^ inv y = c) : mul c (mul x y) = x ^^^ y := by
  subst h
  have h1 : mul (inv x) (mul x y) = y := by rw [← mul_assoc, mul_comm (inv x), mul_inv x hx]; exact one_mul y
  have h2 : mul (inv y) (mul x y) = x := by
    rw [mul_comm x, ← mul_assoc, mul_comm (inv y), mul_inv y hy]; exact one_mul x
  rw [xor_mul, h1, h2, BitVec.xor_comm]

/-- `x(x+a)` takes every value at most twice. -/
theorem quadratic {a x y : Byte} (h : mul x (x ^^^ a) = mul y (y ^^^ a)) : y = x ∨ y = x ^^^ a := by
  have h1 : mul (x ^^^ y) (x ^^^ y ^^^ a) = 0#8 := by
    have : mul (x ^^^ y) (x ^^^ y ^^^ a) = (mul x (x ^^^ a) ^^^ mul y (y ^^^ a)) ^^^ (mul x y ^^^ mul y x) := by
      simp only [xor_mul, mul_xor]; ac_rfl
    rw [this, h, mul_comm x y, BitVec.xor_self, BitVec.xor_self]; rfl
  rcases mul_eq_zero h1 with h | h
  · exact .inl (BitVec.xor_eq_zero_iff.mp h).symm
  · refine .inr ?_
    have h2 := BitVec.xor_eq_zero_iff.mp h
    rw [← h2, ← BitVec.xor_assoc, BitVec.xor_self, BitVec.zero_xor]

/-- Inversion is differentially 4-uniform: for `a ≠ 0` the solutions of `1/x + 1/(x+a) = c` are among four bytes. -/
theorem inv_uniform {a : Byte} (ha : a ≠ 0) (c : Byte) : ∃ x₀, ∀ x, inv x ^^^ inv (x ^^^ a) = c →
    x = 0#8 ∨ x = a ∨ x = x₀ ∨ x = x₀ ^^^ a := by
  by_cases h : ∃ x₀, x₀ ≠ 0#8 ∧ x₀ ≠ a ∧ inv x₀ ^^^ inv (x₀ ^^^ a) = c
  · obtain ⟨x₀, h0, h1, h2⟩ := h
    refine ⟨x₀, fun x hx => ?_⟩
    by_cases e0 : x = 0#8
    · exact .inl e0
    by_cases e1 : x = a
    · exact .inr (.inl e1)
    have nz : ∀ {x : Byte}, x ≠ a → x ^^^ a ≠ 0 := fun h e => h (BitVec.xor_eq_zero_iff.mp e)
    have q : ∀ x : Byte, x ^^^ (x ^^^ a) = a := fun x => by rw [← BitVec.xor_assoc, BitVec.xor_self, BitVec.zero_xor]
    have g1 := inv_add h0 (nz h1) h2
    have g2 := inv_add e0 (nz e1) hx
    rw [q] at g1 g2
    have hc : c ≠ 0 := by
      rintro rfl
      exact ha (g1.symm.trans (zero_mul _))
    exact .inr (.inr (quadratic (mul_left_cancel hc (g1.trans g2.symm))))
  · refine ⟨0#8, fun x hx => ?_⟩
    by_cases e0 : x = 0#8
    · exact .inl e0
    by_cases e1 : x = a
    · exact .inr (.inl e1)
    exact absurd ⟨x, e0, e1, hx⟩ h

/-- The affine map of SBOX, without its constant. -/
def affine (t : Byte) : Byte := ofBits fun i =>
  t.getLsbD i ^^ t.getLsbD ((i + 4) % 8) ^^ t.getLsbD ((i + 5) % 8) ^^ t.getLsbD ((i + 6) % 8) ^^ t.getLsbD ((i + 7) % 8)

theorem sbox_affine : ∀ b : Byte, sbox b = affine (inv b) ^^^ 0x63#8 := by decide +kernel
theorem affine_inj : ∀ t : Byte, affine t = 0#8 → t = 0#8 := by decide +kernel
/-- The columns of its matrix. -/
theorem affine_cols : ∀ t : Byte, affine t = (List.range 8).foldr (fun i acc => acc ^^^ (if t.getLsbD i then affine (1#8 <<< i) else 0#8)) 0#8 := by
  decide +kernel
theorem affine_xor (a b : Byte) : affine (a ^^^ b) = affine a ^^^ affine b := by
  have h : ∀ i (c : Byte), (if (a ^^^ b).getLsbD i then c else 0#8) = (if a.getLsbD i then c else 0#8) ^^^ (if b.getLsbD i then c else 0#8) := by
    intro i c
    rw [BitVec.getLsbD_xor]
    cases a.getLsbD i <;> cases b.getLsbD i <;> simp
  rw [affine_cols, affine_cols a, affine_cols b]
  generalize List.range 8 = l
  induction l with
  | nil => simp
  | cons i l ih =>
    rw [List.foldr_cons, List.foldr_cons, List.foldr_cons, ih, h]
    ac_rfl

/-- SBOX is differentially 4-uniform. -/
theorem sbox_uniform {a : Byte} (ha : a ≠ 0) (c : Byte) : ∃ x₀, ∀ x, sbox x ^^^ sbox (x ^^^ a) = c →
    x = 0#8 ∨ x = a ∨ x = x₀ ∨ x = x₀ ^^^ a := by
  by_cases h : ∃ y, sbox y ^^^ sbox (y ^^^ a) = c
  · obtain ⟨y, rfl⟩ := h
    obtain ⟨x₀, hx⟩ := inv_uniform ha (inv y ^^^ inv (y ^^^ a))
    refine ⟨x₀, fun x h => hx x ?_⟩
    have e : ∀ x, sbox x ^^^ sbox (x ^^^ a) = affine (inv x ^^^ inv (x ^^^ a)) := by
      intro x
      rw [affine_xor, sbox_affine, sbox_affine]
      have : ∀ p q r : Byte, p ^^^ r ^^^ (q ^^^ r) = p ^^^ q := by
        intro p q r
        rw [BitVec.xor_comm q r, ← BitVec.xor_assoc, BitVec.xor_assoc p r r, BitVec.xor_self, BitVec.xor_zero]
      exact this _ _ _
    rw [e, e] at h
    have := affine_inj (inv x ^^^ inv (x ^^^ a) ^^^ (inv y ^^^ inv (y ^^^ a))) (by rw [affine_xor, h, BitVec.xor_self])
    exact BitVec.xor_eq_zero_iff.mp this
  · exact ⟨0#8, fun x hx => absurd ⟨x, hx⟩ h⟩

end Fips197
