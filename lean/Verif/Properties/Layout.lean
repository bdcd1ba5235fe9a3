import Verif.Model.Transmute
import Verif.Properties.KeySchedule
import Verif.Properties.Vectors
/-!
C49: what 192-bit keys on riscv64 depend on. The key schedule ends with a `transmute` of a tuple, whose layout Rust does not
specify.
-/
namespace Aes
open Rust AesSpec Fips197 AesVec AesBlock Target

/-- C49: with the words of the tuple in declaration order, the function is the one that C02, C04 and C09 are about. -/
theorem C49_declaration_order (key : Bytes 24) :
    Riscv64.keygen_192_with Riscv64.inOrder key = keygen_192 (B := Target.riscv64.Block) key := by
  show _ = Riscv64.keygen_192 key
  unfold Riscv64.keygen_192_with Riscv64.words_192 Riscv64.keygen_192
  simp only [bind_assoc, pure_bind]
  rfl

/-- Is this result the FIPS-197 key schedule of `key`? -/
def IsSchedule192 (key : Bytes 24) (m : M (Vector Target.riscv64.Block 13)) : Prop :=
  ∃ ks, m = .ok ks ∧ ∀ (r : Nat) (h : r < 13), into_bytes ks[r] = .ok (roundKeyBytes (keyExpansion 6 key) r)

theorem isSchedule_inOrder (key : Bytes 24) : IsSchedule192 key (Riscv64.keygen_192_with Riscv64.inOrder key) := by
  obtain ⟨e, he, h⟩ := C09_aes192 .riscv64 (by decide) (by decide) key
  rw [C49_declaration_order]
  unfold Aes192Enc.from at he
  cases hk : keygen_192 (B := Target.riscv64.Block) key with
  | error f => rw [hk] at he; cases he
  | ok ks => rw [hk] at he; cases he; exact ⟨ks, rfl, h⟩
theorem isSchedule_unique {key : Bytes 24} {m m' : M (Vector Target.riscv64.Block 13)} (h : IsSchedule192 key m) (h' : IsSchedule192 key m') :
    m = m' := by
  obtain ⟨ks, rfl, h⟩ := h
  obtain ⟨ks', rfl, h'⟩ := h'
  refine congrArg Except.ok (Vector.ext fun r hr => view_inj ?_)
  have h1 := h r hr
  have h2 := h' r hr
  rw [into_bytes_eq] at h1 h2
  exact Except.ok.inj (h1.trans h2.symm)

/-- Are all words of the schedule different? -/
def allDistinct (m : M (Vector U64 26)) : Bool :=
  match m with
  | .ok w => decide (∀ i j : Fin 26, w[i] = w[j] → i = j)
  | .error _ => false

theorem words_distinct : ∃ w, Riscv64.words_192 exKey192 = .ok w ∧ ∀ i j : Fin 26, w[i] = w[j] → i = j := by
  have h : allDistinct (Riscv64.words_192 exKey192) = true := by decide +kernel
  cases hw : Riscv64.words_192 exKey192 with
  | error f => rw [hw] at h; cases h
  | ok w => rw [hw] at h; exact ⟨w, rfl, of_decide_eq_true h⟩

/-- C49: 192-bit key set-up on riscv64 is right for all keys if and only if the compiler lays the words of that tuple out in declaration
order. (It is not documented to.) -/
theorem C49_layout_iff (layout : Riscv64.Layout) :
    (∀ key, IsSchedule192 key (Riscv64.keygen_192_with layout key)) ↔ layout = Riscv64.inOrder := by
  constructor
  · intro h
    obtain ⟨w, hw, hd⟩ := words_distinct
    have he := isSchedule_unique (h exKey192) (isSchedule_inOrder exKey192)
    unfold Riscv64.keygen_192_with at he
    rw [hw] at he
    have he : Riscv64.transmute_192 layout w = Riscv64.transmute_192 Riscv64.inOrder w := Except.ok.inj he
    refine Vector.ext fun i hi => hd _ _ ?_
    have hb := congrArg (fun v : Vector Riscv64.Block 13 => v[i / 2]) he
    simp only [Riscv64.transmute_192, Vector.getElem_ofFn, Riscv64.Block.mk.injEq] at hb
    obtain ⟨h0, h1⟩ := hb
    by_cases hp : i % 2 = 0
    · have : 2 * (i / 2) = i := by omega
      simp only [this] at h0; exact h0
    · have : 2 * (i / 2) + 1 = i := by omega
      simp only [this] at h1; exact h1
  · rintro rfl key
    exact isSchedule_inOrder key

/-- C49: for instance, swapping the last two words breaks it. -/
theorem C49_swapped_refuted : ¬ ∀ key, IsSchedule192 key
    (Riscv64.keygen_192_with ((Riscv64.inOrder.set 24 25).set 25 24) key) := by
  rw [C49_layout_iff]
  decide

/-- A key for which the declaration order gives the schedule of FIPS-197 (whose first round key is the start of the key). -/
example : IsSchedule192 exKey192 (Riscv64.keygen_192_with Riscv64.inOrder exKey192) := isSchedule_inOrder exKey192
/-- Another layout changes the round keys of that key. -/
example : (Riscv64.keygen_192_with ((Riscv64.inOrder.set 24 25).set 25 24) exKey192).toOption.map (·.toList.map fun b => (b.d0, b.d1)) ≠
    (Riscv64.keygen_192_with Riscv64.inOrder exKey192).toOption.map (·.toList.map fun b => (b.d0, b.d1)) := by decide +kernel
end Aes
