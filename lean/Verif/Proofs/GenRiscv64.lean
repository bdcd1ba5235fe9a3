import Verif.Proofs.GenCore
import Verif.Proofs.Bytes
import Verif.Gen.Riscv64
/-
The functions generated from src/aes_riscv64.rs are those of the model (RISC-V is little-endian).
-/
set_option linter.unusedSectionVars false
set_option linter.unusedVariables false
namespace RustSrc.Riscv64
open Rust
variable [Cfg]

theorem eq_eq : eq = fun a b => decide (a = b) := by
  funext a b
  obtain ⟨a0, a1⟩ := a
  obtain ⟨b0, b1⟩ := b
  unfold eq
  rw [Bool.eq_iff_iff]
  simp

theorem byte_congr (w : U64) {i j : Nat} (hi : i < 8) (hj : j < 8) (h : i = j) :
    (toNe Cfg.endian 8 w)[i] = (toNe Cfg.endian 8 w)[j] := by subst h; rfl

/-- The memory of the tuple of src/aes_riscv64.rs:219-221, word by word. -/
theorem tuple_bytes (s0 s1 s2 s3 s4 s5 s6 s7 : U64 × U64 × U64) (a b : U64) (k : Nat) (hk : k < 26) (j : Nat) (hj : j < 8) :
    (Layout.bytes (s0, s1, s2, s3, s4, s5, s6, s7, a, b))[8 * k + j]'(by omega) =
      (Layout.bytes (#v[s0.1, s0.2.1, s0.2.2, s1.1, s1.2.1, s1.2.2, s2.1, s2.2.1, s2.2.2, s3.1, s3.2.1, s3.2.2,
        s4.1, s4.2.1, s4.2.2, s5.1, s5.2.1, s5.2.2, s6.1, s6.2.1, s6.2.2, s7.1, s7.2.1, s7.2.2, a, b][k]))[j] := by
  have h : k = 0 ∨ k = 1 ∨ k = 2 ∨ k = 3 ∨ k = 4 ∨ k = 5 ∨ k = 6 ∨ k = 7 ∨ k = 8 ∨ k = 9 ∨ k = 10 ∨ k = 11 ∨ k = 12 ∨
    k = 13 ∨ k = 14 ∨ k = 15 ∨ k = 16 ∨ k = 17 ∨ k = 18 ∨ k = 19 ∨ k = 20 ∨ k = 21 ∨ k = 22 ∨ k = 23 ∨ k = 24 ∨ k = 25 := by
    omega
  rcases h with rfl | rfl | rfl | rfl | rfl | rfl | rfl | rfl | rfl | rfl | rfl | rfl | rfl | rfl | rfl | rfl | rfl | rfl |
    rfl | rfl | rfl | rfl | rfl | rfl | rfl | rfl
  all_goals
    simp (disch := omega) only [Layout.bytes, Vector.getElem_append_left, Vector.getElem_append_right]
    exact byte_congr _ _ _ (by omega)

/-- The words of the tuple are those of the blocks. -/
theorem transmute_192_eq (s0 s1 s2 s3 s4 s5 s6 s7 : U64 × U64 × U64) (a b : U64) :
    (transmute (s0, s1, s2, s3, s4, s5, s6, s7, a, b) : Vector Aes.Riscv64.Block 13) =
      #v[⟨s0.1, s0.2.1⟩, ⟨s0.2.2, s1.1⟩, ⟨s1.2.1, s1.2.2⟩, ⟨s2.1, s2.2.1⟩, ⟨s2.2.2, s3.1⟩, ⟨s3.2.1, s3.2.2⟩,
        ⟨s4.1, s4.2.1⟩, ⟨s4.2.2, s5.1⟩, ⟨s5.2.1, s5.2.2⟩, ⟨s6.1, s6.2.1⟩, ⟨s6.2.2, s7.1⟩, ⟨s7.2.1, s7.2.2⟩, ⟨a, b⟩] := by
  have hw : ∀ (k : Nat) (hk : k < 26), (Layout.ofBytes (Vector.ofFn fun j : Fin 8 =>
      (Layout.bytes (s0, s1, s2, s3, s4, s5, s6, s7, a, b))[8 * k + j.val]'(by have := j.isLt; omega)) : U64) =
      #v[s0.1, s0.2.1, s0.2.2, s1.1, s1.2.1, s1.2.2, s2.1, s2.2.1, s2.2.2, s3.1, s3.2.1, s3.2.2,
        s4.1, s4.2.1, s4.2.2, s5.1, s5.2.1, s5.2.2, s6.1, s6.2.1, s6.2.2, s7.1, s7.2.1, s7.2.2, a, b][k] := by
    intro k hk
    have e : (Vector.ofFn fun j : Fin 8 =>
      (Layout.bytes (s0, s1, s2, s3, s4, s5, s6, s7, a, b))[8 * k + j.val]'(by have := j.isLt; omega)) =
        Layout.bytes (#v[s0.1, s0.2.1, s0.2.2, s1.1, s1.2.1, s1.2.2, s2.1, s2.2.1, s2.2.2, s3.1, s3.2.1, s3.2.2,
        s4.1, s4.2.1, s4.2.2, s5.1, s5.2.1, s5.2.2, s6.1, s6.2.1, s6.2.2, s7.1, s7.2.1, s7.2.2, a, b][k]) := by
      refine Vector.ext fun j hj => ?_
      rw [Vector.getElem_ofFn]
      exact tuple_bytes s0 s1 s2 s3 s4 s5 s6 s7 a b k hk j hj
    rw [e]
    exact fromNe_toNe _ _ (by omega)
  have hb : ∀ (i : Nat) (hi : i < 13),
      (transmute (s0, s1, s2, s3, s4, s5, s6, s7, a, b) : Vector Aes.Riscv64.Block 13)[i] =
      ⟨#v[s0.1, s0.2.1, s0.2.2, s1.1, s1.2.1, s1.2.2, s2.1, s2.2.1, s2.2.2, s3.1, s3.2.1, s3.2.2,
        s4.1, s4.2.1, s4.2.2, s5.1, s5.2.1, s5.2.2, s6.1, s6.2.1, s6.2.2, s7.1, s7.2.1, s7.2.2, a, b][2 * i],
        #v[s0.1, s0.2.1, s0.2.2, s1.1, s1.2.1, s1.2.2, s2.1, s2.2.1, s2.2.2, s3.1, s3.2.1, s3.2.2,
        s4.1, s4.2.1, s4.2.2, s5.1, s5.2.1, s5.2.2, s6.1, s6.2.1, s6.2.2, s7.1, s7.2.1, s7.2.2, a, b][2 * i + 1]⟩ := by
    intro i hi
    have h0 := hw (2 * i) (by omega)
    have h1 := hw (2 * i + 1) (by omega)
    rw [← h0, ← h1]
    unfold transmute
    generalize Layout.bytes (s0, s1, s2, s3, s4, s5, s6, s7, a, b) = B
    simp only [Layout.ofBytes, Vector.getElem_ofFn, Vector.getElem_cast]
    have e0 : ∀ j, 8 * (2 * i) + j = 16 * i + j := by omega
    have e1 : ∀ j, 8 * (2 * i + 1) + j = 16 * i + (8 + j) := by omega
    simp only [e0, e1]
  refine Vector.ext fun i hi => ?_
  rw [hb i hi]
  have h : i = 0 ∨ i = 1 ∨ i = 2 ∨ i = 3 ∨ i = 4 ∨ i = 5 ∨ i = 6 ∨ i = 7 ∨ i = 8 ∨ i = 9 ∨ i = 10 ∨ i = 11 ∨ i = 12 := by omega
  rcases h with rfl | rfl | rfl | rfl | rfl | rfl | rfl | rfl | rfl | rfl | rfl | rfl | rfl <;> rfl

theorem keygen_192_eq : keygen_192 = Aes.Riscv64.keygen_192 := by
  funext key
  unfold keygen_192 Aes.Riscv64.keygen_192 Aes.Riscv64.load_u64
  simp only [bind_assoc, pure_bind, transmute_192_eq]
  rfl

section
variable (he : (Cfg.endian : Endian) = .little)
include he

theorem ofBytes_eq (v : Vector U8 16) : Aes.Riscv64.new v = .ok (Layout.ofBytes v) := by
  simp only [Layout.ofBytes, he, fromNe, Aes.Riscv64.new]

theorem new_eq : (fun a => pure (new a)) = Aes.Riscv64.new := by
  funext v; rw [ofBytes_eq he]; rfl

theorem bytes_eq : (Layout.bytes : Aes.Riscv64.Block → _) = Aes.Riscv64.memory := by
  funext v
  simp only [Layout.bytes, he, toNe, Aes.Riscv64.memory]

theorem store_to_eq : store_to = Aes.Riscv64.store_to := by
  funext v d; unfold store_to Aes.Riscv64.store_to; rw [bytes_eq he]

theorem keygen_128_eq : (fun a => pure (keygen_128 a)) = Aes.Riscv64.keygen_128 := by
  funext key
  unfold keygen_128 Aes.Riscv64.keygen_128
  rw [show Aes.Riscv64.from_bytes key = .ok (from_bytes key) from (congrFun (new_eq he) key).symm, Aes.Profile.ok_bind]
  rfl

theorem keygen_256_eq : keygen_256 = Aes.Profile.Riscv64.keygen_256 Cfg.profile := by
  funext key
  unfold keygen_256 Aes.Profile.Riscv64.keygen_256 try_from from_bytes
  simp only [Core.try_from_slice_eq, new_eq he]
  rfl

theorem block_eq : block = Aes.Profile.Riscv64.block Cfg.profile := by
  unfold block Aes.Profile.Riscv64.block from_bytes
  rw [eq_eq, new_eq he, store_to_eq he, keygen_128_eq he, keygen_192_eq, keygen_256_eq he]
  rfl
end

end RustSrc.Riscv64
