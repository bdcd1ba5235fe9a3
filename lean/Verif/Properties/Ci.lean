import Verif.Model.Ci
import Verif.Properties.Deployment
/-!
C55: what the repository's continuous integration does and does not settle.
-/
namespace Aes
open Rust Config Client Ci

/-- Whatever a job asks for, the configuration it gets is one that rustc can produce. -/
theorem C55_valid (j : Job) : j.cfg.Valid := by
  obtain ⟨name, ch, tr, fs, n, ct⟩ := j
  have key (f g : Feature) (h0 : f ∈ Triple.base tr → g ∈ Triple.base tr)
      (h : ∀ x, f ∈ enabledBy tr.arch x → g ∈ enabledBy tr.arch x) :
      (Triple.base tr ++ fs.flatMap (enabledBy tr.arch)).contains f = true →
        (Triple.base tr ++ fs.flatMap (enabledBy tr.arch)).contains g = true := by
    simp only [List.contains_eq_mem, List.mem_append, decide_eq_true_eq]
    rintro (hf | hf)
    · exact Or.inl (h0 hf)
    · obtain ⟨x, hx, hxf⟩ := List.mem_flatMap.1 hf
      exact Or.inr (List.mem_flatMap.2 ⟨x, hx, h x hxf⟩)
  refine ⟨fun _ => rfl, ?_, ?_, ?_, ?_, ?_, fun h => ⟨?_, ?_⟩, ?_⟩
  · exact key _ _ (by cases tr <;> decide) (by intro x; cases x <;> cases tr <;> decide)
  · exact key _ _ (by cases tr <;> decide) (by intro x; cases x <;> cases tr <;> decide)
  · exact key _ _ (by cases tr <;> decide) (by intro x; cases x <;> cases tr <;> decide)
  · exact key _ _ (by cases tr <;> decide) (by intro x; cases x <;> cases tr <;> decide)
  · exact key _ _ (by cases tr <;> decide) (by intro x; cases x <;> cases tr <;> decide)
  · exact key _ _ (by cases tr <;> decide) (by intro x; cases x <;> cases tr <;> decide) h
  · exact key _ _ (by cases tr <;> decide) (by intro x; cases x <;> cases tr <;> decide) h
  · intro h ha
    refine key .aes .neon ?_ ?_ h
    · cases tr <;> decide
    · intro x
      simp only [Job.cfg] at ha
      cases tr <;> simp [Triple.arch] at ha <;> cases x <;> decide

/-- C55: CI is green: every test job gets a target, and the crate's test suite passes on it. -/
theorem C55_ci_green (j : Job) (hj : j ∈ testJobs) :
    ∃ t, target j.cfg = some t ∧ ∀ r ∈ Tests.all t, r = .ok () := by
  have h : ∀ j ∈ testJobs, (target j.cfg).any fun t => decide (t ≠ .riscv32 ∧ t ≠ .bitslice .big) := by decide
  have hj := h j hj
  rw [Option.any_eq_true] at hj
  obtain ⟨t, ht, hc⟩ := hj
  exact ⟨t, ht, (C51_suite_decides t).2 (of_decide_eq_true hc)⟩

/-- C55: the targets CI tests are exactly those that are AES for every client; the two that are wrong (C41, C42) are those it
never runs. -/
theorem C55_tested_iff_aes (t : Target) : (∃ j ∈ testJobs, target j.cfg = some t) ↔
    ∀ client n, observe (crate t) client n = observe aes client n := by
  rw [C29_is_aes_iff]
  rcases t with _ | e | _ | _ | _ | is32 | _ | _
  · decide
  · cases e <;> decide
  · decide
  · decide
  · decide
  · cases is32 <;> decide
  · decide
  · decide

/-- C55: a job that may run on a stable or beta toolchain switches on no unstable feature and needs none. -/
theorem C55_stable_jobs (j : Job) (hj : j ∈ testJobs ++ clippyJobs) (h : j.channels ≠ [.nightly]) :
    gates j.cfg = [] ∧ neededGates j.cfg = [] := by
  revert h; revert j; decide

/-- C55, refutation: the clippy jobs named `RV64` and `RV32` do not look at the RISC-V modules: `--features=nightly` is missing,
so they compile the table-based code. -/
theorem C55_clippy_riscv_refuted : target clippyRv64.cfg = some .table ∧ target clippyRv32.cfg = some .table := by decide

/-- C55: no job of any kind compiles `aes_riscv32`, whereas every other module is compiled by a test job. -/
theorem C55_never_compiled (m : BlockMod) : (∃ j ∈ testJobs ++ clippyJobs, blockMod j.cfg = m) ↔ m ≠ .aes_riscv32 := by
  cases m <;> decide
/-- C55: all four wide modules are run by a test job. -/
theorem C55_wide_modules (m : X2Mod) (m' : X4Mod) :
    (∃ j ∈ testJobs, x2Mod j.cfg = m) ∧ (∃ j ∈ testJobs, x4Mod j.cfg = m') := by
  cases m <;> cases m' <;> decide

/-- There are eight test jobs, on seven architectures and feature sets. -/
example : testJobs.map (fun j => target j.cfg) = [some .x86, some .x86Vaes, some .x86Vaes512, some (.arm false), some (.arm true),
    some .riscv64, some .table, some (.bitslice .little)] := by decide

end Aes
