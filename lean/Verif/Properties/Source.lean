import Verif.Proofs.GenLadders
import Verif.Proofs.GenCrate
import Verif.Properties.Profile
import Verif.Properties.Deployment
/-
C60: the theorems of this development speak about the source text. The functions in Verif/Gen are generated from the text of
/repo/src by tools/rust2lean.py (a syntactic translation, expression by expression); `RustSrc.crate` assembles them, without
any function of the hand-written model, into what a client can call, and `RustSrc.compiled` selects the modules as the
conditional compilation in src/lib.rs does. Each is equal to the hand-written model, for every build profile and target.
-/
namespace Aes
open Rust AesSpec Fips197 Target Client Config

/-- C60: the crate translated from the source text is the model, for every build profile, byte order of the build and target:
every function of the API, on every block width and key size, gives the same result on the same values. -/
theorem C60_source_is_model (pf : Profile) (e : Endian) (t : Target) : RustSrc.crate pf e t = crate t := by
  rw [RustSrc.crate_eq, Profile.crate_eq]

/-- C60: the conditional compilation translated from src/lib.rs selects the same modules as the model's, and enables the same
nightly gates, in every configuration (valid or not). -/
theorem C60_selection (c : Cfg) : RustSrc.selected c = target c ∧ RustSrc.Ladders.gates c = gates c :=
  ⟨RustSrc.selected_eq c, congrFun RustSrc.Ladders.gates_eq c⟩

/-- C60: for no client is there a difference between the translated source and AES on plain bytes, except on riscv32 with
`zkne`/`zknd` and on big-endian constant-time targets (where C41 and C42 say what the difference is). -/
theorem C60_is_aes (pf : Profile) (e : Endian) (t : Target) (ht : t ≠ .riscv32) (hb : t ≠ .bitslice .big)
    (client : Client) (n : Nat) : observe (RustSrc.crate pf e t) client n = observe aes client n := by
  rw [C60_source_is_model, C29_refines_aes t ht hb]

/-- C60: from the source text to the client. In every valid configuration but big-endian Arm with AES instructions the source
text compiles, in every build profile, and every client sees what the specification `behaviour` of that configuration, a machine
on plain bytes, shows it. -/
theorem C60_every_configuration (pf : Profile) (c : Cfg) (h : c.Valid) (hbe : ¬ c.BigEndianArmAes) :
    ∃ I, RustSrc.compiled pf c = some I ∧ ∀ client n, observe I client n = observe (behaviour c) client n := by
  obtain ⟨t, ht, hc⟩ := C33_every_configuration c h hbe
  refine ⟨crate t, ?_, hc⟩
  unfold RustSrc.compiled
  rw [RustSrc.selected_eq, ht]
  exact congrArg some (C60_source_is_model pf c.endian t)

/-- C60: the valid configurations in which the source text compiles to AES are exactly those that are not big-endian Arm with AES
instructions, not RISC-V-32 with `zkne`/`zknd` under `nightly`, and not big-endian software with `constant-time`. -/
theorem C60_is_aes_iff (pf : Profile) (c : Cfg) (h : c.Valid) :
    (∃ I, RustSrc.compiled pf c = some I ∧ ∀ client n, observe I client n = observe aes client n) ↔
      ¬ c.BigEndianArmAes ∧ ¬ c.Rv32Zk ∧ ¬ c.BigConstantTime := by
  rw [← C33_is_aes_iff c h]
  unfold RustSrc.compiled
  rw [RustSrc.selected_eq]
  constructor
  · rintro ⟨I, hI, hc⟩
    cases ht : target c with
    | none => rw [ht] at hI; cases hI
    | some t =>
      rw [ht] at hI
      refine ⟨t, rfl, fun client n => ?_⟩
      rw [← hc client n, ← Option.some.inj hI]
      exact congrArg (fun I => observe I client n) (C60_source_is_model pf c.endian t).symm
  · rintro ⟨t, ht, hc⟩
    exact ⟨crate t, by rw [ht]; exact congrArg some (C60_source_is_model pf c.endian t), hc⟩

/-- C60: in every state that any values can form, a call into the translated source faults only by a panic, and only if the call
is a documented misuse: no undefined behaviour, no overflow, no failing `debug_assert!`, in any build profile. -/
theorem C60_fault_is_misuse (pf : Profile) (e : Endian) (t : Target) (s : Store (RustSrc.crate pf e t)) (c : Call) (f : Fault)
    (h : (step (RustSrc.crate pf e t) s c).1 = .fault f) : f = .panic ∧ misuse c := by
  revert s h
  rw [C60_source_is_model]
  exact fun s h => C44_fault_is_misuse t s c f h

/-! ### Concrete instances -/

/-- The default build on x86-64 with AES-NI, with nothing assumed, is AES. -/
example : ∃ I, RustSrc.compiled .release (sample .x86) = some I ∧ ∀ client n, observe I client n = observe aes client n :=
  (C60_is_aes_iff _ _ (C33_every_target .x86).1).2
    (by unfold Cfg.BigEndianArmAes Cfg.Rv32Zk Cfg.BigConstantTime; decide)
/-- And so is a debug build of the constant-time code on a little-endian machine. -/
example : ∃ I, RustSrc.compiled .dev (sample (.bitslice .little)) = some I ∧
    ∀ client n, observe I client n = observe aes client n :=
  (C60_is_aes_iff _ _ (C33_every_target (.bitslice .little)).1).2
    (by unfold Cfg.BigEndianArmAes Cfg.Rv32Zk Cfg.BigConstantTime; decide)
/-- A program that the translated table-based code runs (evaluated by the kernel, without the model): FIPS-197, Appendix B. -/
example : observe (RustSrc.crate .dev .little .table)
    (script [.encFrom .k128 (Vector.ofFn fun i => #[0x2b, 0x7e, 0x15, 0x16, 0x28, 0xae, 0xd2, 0xa6, 0xab, 0xf7, 0x15, 0x88, 0x09, 0xcf, 0x4f, 0x3c][i.val]!),
      .new .x1 (Vector.ofFn fun i => #[0x32, 0x43, 0xf6, 0xa8, 0x88, 0x5a, 0x30, 0x8d, 0x31, 0x31, 0x98, 0xa2, 0xe0, 0x37, 0x07, 0x34][i.val]!),
      .encrypt .k128 .x1 0 1, .into_bytes .x1 2]) 4 =
    [.done, .done, .done, .bytes [0x39, 0x25, 0x84, 0x1d, 0x02, 0xdc, 0x09, 0xfb, 0xdc, 0x11, 0x85, 0x97, 0x19, 0x6a, 0x0b, 0x32]] := by
  decide +kernel
/-- An empty key slice is a misuse, and the translated code panics. -/
example : observe (RustSrc.crate .release .little .x86) (script [.new .x2 (Vector.replicate _ 7), .chain_enc .x2 0 []]) 2 =
    [.done, .fault .panic] := by decide +kernel

end Aes
