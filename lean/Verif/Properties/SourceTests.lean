import Verif.Proofs.GenTests
import Verif.Properties.Source
/-
C51 for the source text: `RustSrc.tests` is the list of tests that tools/rust2lean.py prints from src/tests.rs and from the test
module of src/aes_bitslice.rs, run against the printed functions of the target.
-/
namespace Aes
open Rust Target Client Config

/-- C51: the tests translated from the source text, run on the functions translated from the source text, have the results of the
model's, test by test, in every build profile and on every target. -/
theorem C51_source_tests (pf : Profile) (e : Endian) (t : Target) : RustSrc.tests pf e t = Tests.all t := RustSrc.tests_eq pf e t

/-- C51: the translated tests all pass exactly on the targets where no client can tell the translated crate from AES on plain
bytes: as far as the choice of target goes, `cargo test` on the machine is a complete check. -/
theorem C51_source_decides (pf : Profile) (e : Endian) (t : Target) :
    (∀ r ∈ RustSrc.tests pf e t, r = .ok ()) ↔ ∀ client n, observe (RustSrc.crate pf e t) client n = observe aes client n := by
  rw [C51_source_tests, C51_suite_decides, C60_source_is_model]
  exact (C29_is_aes_iff t).symm

/-- C51: in every valid configuration in which the source text compiles, the tests pass exactly if the configuration is
neither RV32 with Zkne/Zknd nor big-endian `constant-time`. -/
theorem C51_source_configurations (pf : Profile) (c : Cfg) (h : c.Valid) (hbe : ¬ c.BigEndianArmAes) :
    ∃ t, RustSrc.selected c = some t ∧
      ((∀ r ∈ RustSrc.tests pf c.endian t, r = .ok ()) ↔ ¬ c.Rv32Zk ∧ ¬ c.BigConstantTime) := by
  obtain ⟨t, ht, _⟩ := C33_every_configuration c h hbe
  refine ⟨t, (RustSrc.selected_eq c).trans ht, ?_⟩
  have h1 := C60_is_aes_iff pf c h
  unfold RustSrc.compiled at h1
  rw [RustSrc.selected_eq, ht] at h1
  rw [C51_source_decides]
  constructor
  · exact fun hc => (h1.mp ⟨_, rfl, hc⟩).2
  · intro hc
    obtain ⟨I, hI, hc⟩ := h1.mpr ⟨hbe, hc⟩
    cases hI
    exact hc

/-- Both sides occur: on x86 the tests pass, on RV32 with Zkne/Zknd all seven fail. -/
example : (∀ r ∈ RustSrc.tests .dev .little .x86, r = .ok ()) ∧ RustSrc.tests .dev .little .riscv32 = List.replicate 7 (.error .panic) :=
  ⟨by rw [C51_source_tests]; exact C51_suite_passes .x86 (by decide) (by decide), by
    rw [C51_source_tests]; exact List.eq_replicate_iff.mpr ⟨rfl, C51_suite_fails_riscv32⟩⟩
/-- The translated unit tests of the constant-time code, evaluated by the kernel. -/
example : @RustSrc.Bitslice.Tests.suite ⟨.dev, .big, false⟩ = [.ok (), .ok ()] := by decide +kernel
end Aes
