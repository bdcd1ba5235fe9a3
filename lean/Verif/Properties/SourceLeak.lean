import Verif.Proofs.GenLeakCrate
import Verif.Properties.ConstantTime
import Verif.Properties.Source
/-
C61: the leakage theorems speak about the source text. The functions in Verif/Gen/Leak*.lean are generated from the text of
/repo/src by tools/rust2lean.py: the same translation as in C60, with an event for every operation on data, branch and memory
access. `RustSrc.Leak.leakage` is the trace of the calls that a client makes.
-/
namespace Aes
open Rust AesSpec Target Client Config
open Leak (silent ctEq Event)

/-- C61: what an observer of timing, branches and memory accesses learns from the source text is what the model says, for every
build profile, byte order of the build, target, client and number of calls. -/
theorem C61_leakage (pf : Profile) (e : Endian) (t : Target) (client : Client) (n : Nat) :
    RustSrc.Leak.leakage pf e t client n = Leak.leakage t client n := RustSrc.Leak.leakage_eq pf e t client n

/-- C61: the translation with events computes what the translation without events computes: erasing the events gives what the
client observes (C60). -/
theorem C61_erasure (pf : Profile) (e : Endian) (t : Target) (client : Client) (n : Nat) :
    (RustSrc.Leak.run pf e t client n).out.map (·.1) = .ok (observe (RustSrc.crate pf e t) client n) := by
  rw [RustSrc.Leak.out_eq, C34_erasure, C60_source_is_model]
  rfl

/-- C61: constant time, of the source text. Two clients whose `k`-th calls have the same shape (the same function on the same
variables, with data of the same lengths, but any bytes, keys and blocks) cannot be told apart by what they leak, if their calls
are among the `silent` ones. -/
theorem C61_constant_time (pf : Profile) (e : Endian) (t : Target) (client client' : Client) (n : Nat)
    (hshape : ∀ k, k < n → (client (observe (RustSrc.crate pf e t) client k)).map Call.blank =
      (client' (observe (RustSrc.crate pf e t) client' k)).map Call.blank)
    (hsilent : ∀ k, k < n → ∀ c, client (observe (RustSrc.crate pf e t) client k) = some c → silent t c = true) :
    RustSrc.Leak.leakage pf e t client n = RustSrc.Leak.leakage pf e t client' n := by
  rw [C60_source_is_model] at hshape hsilent
  rw [C61_leakage, C61_leakage, C34_constant_time t client client' n hshape hsilent]

/-- Key setup and encryption of one value. -/
def encryptProgram (k : KeySize) (w : Width) (key : Vector U8 k.bytes) (b : Vector U8 w.size) : List Call :=
  [.encFrom k key, .new w b, .encrypt k w 0 1]
/-- Key setup and decryption of one value. -/
def decryptProgram (k : KeySize) (w : Width) (key : Vector U8 k.bytes) (b : Vector U8 w.size) : List Call :=
  [.decFrom k key, .new w b, .decrypt k w 0 1]

theorem leakage_succ {t : Target} {client : Client} {n : Nat} {c : Call} (h : client (observe (crate t) client n) = some c) :
    Leak.leakage t client (n + 1) = Leak.leakage t client n ++ (Leak.step t (Client.run (crate t) client n).2 c).trace := by
  show (Leak.run t client n >>= _).trace = _
  rw [Leak.trace_bind (C34_erasure t client n)]
  have h' : client (Client.run (crate t) client n).1 = some c := h
  rw [h']
  show _ ++ (Leak.step t (Client.run (crate t) client n).2 c >>= _).trace = _
  refine congrArg _ ?_
  cases ho : (Leak.step t (Client.run (crate t) client n).2 c).out with
  | ok a => rw [Leak.trace_bind ho]; simp [Leak.trace_pure]
  | error f => show (Leak.L.bind _ _).trace = _; simp only [Leak.L.bind, ho]

/-- C61: on the table-based implementation, the source text leaks the whole key: if the program that sets up a key and encrypts
one (known) block shows the observer the same for two keys, the keys are equal. -/
theorem C61_table_leaks_key (pf : Profile) (e : Endian) (k : KeySize) (key key' : Vector U8 k.bytes) (b : Bytes 16)
    (h : ∀ n, RustSrc.Leak.leakage pf e .table (script (encryptProgram k .x1 key b)) n =
      RustSrc.Leak.leakage pf e .table (script (encryptProgram k .x1 key' b)) n) : key = key' := by
  have h2 := h 2
  have h3 := h 3
  simp only [C61_leakage] at h2 h3
  obtain ⟨x, hx⟩ : ∃ x : Table.Block, (AesVec.new b : M Table.Block) = .ok x := ⟨_, LawfulVec.new_eq b⟩
  have key_step : ∀ key : Vector U8 k.bytes, ∃ f : AesEnc Table.Block k.rounds, encFromOf Table.Block k key = .ok f ∧
      Leak.leakage .table (script (encryptProgram k .x1 key b)) 3 =
        Leak.leakage .table (script (encryptProgram k .x1 key b)) 2 ++ (Leak.encrypt id f x).trace := by
    intro key
    obtain ⟨f, hf⟩ : ∃ f, encFromOf Table.Block k key = .ok f := by
      cases k
      · exact ⟨_, (C38_aes128_key .table key).choose_spec.1⟩
      · exact ⟨_, (C38_aes192_key .table key).choose_spec.choose_spec.choose_spec.1⟩
      · exact ⟨_, (C38_aes256_key .table key).choose_spec.choose_spec.choose_spec.1⟩
    refine ⟨f, hf, ?_⟩
    have r2 : Client.run (crate .table) (script (encryptProgram k .x1 key b)) 2 = ([.done, .done], [.enc k f, .vec .x1 x]) := by
      show Client.run _ _ (1 + 1) = _
      have r1 : Client.run (crate .table) (script (encryptProgram k .x1 key b)) 1 = ([.done], [.enc k f]) := by
        show ([] ++ [(Client.retM _ (encFromOf Table.Block k key) _).1], (Client.retM _ (encFromOf Table.Block k key) _).2) = _
        rw [hf]; rfl
      rw [Leak.run_succ_some (c := .new .x1 b) (by unfold observe; rw [r1]; rfl), r1]
      show ([.done] ++ [(Client.retM _ (AesVec.new b : M Table.Block) _).1], (Client.retM _ (AesVec.new b : M Table.Block) _).2) = _
      rw [hx]; rfl
    rw [show (3 : Nat) = 2 + 1 from rfl, leakage_succ (c := .encrypt k .x1 0 1) (by unfold observe; rw [r2]; rfl), r2]
    refine congrArg _ ?_
    show (Leak.need _ (if h : k = k then _ else _) _).trace = _
    rw [dif_pos rfl]
    rfl
  obtain ⟨f, hf, e3⟩ := key_step key
  obtain ⟨f', hf', e3'⟩ := key_step key'
  have ht : (Leak.encrypt id f x).trace = (Leak.encrypt id f' x).trace :=
    List.append_cancel_left ((e3.symm.trans h3).trans (e3'.trans (congrArg (· ++ _) h2.symm)))
  cases k with
  | k128 => exact (C34_table_leaks_key x).1 key key' f f' hf hf' ht
  | k192 => exact (C34_table_leaks_key x).2.1 key key' f f' hf hf' ht
  | k256 => exact (C34_table_leaks_key x).2.2 key key' f f' hf hf' ht

/-- C61: which builds of the source text are constant time. In a valid configuration that compiles (to the modules of target
`t`), in every build profile: setting up a key of any size and encrypting, or decrypting, any value of any width leaks nothing
about keys and data exactly if the `constant-time` feature is on or an accelerated implementation is found. -/
theorem C61_every_configuration (pf : Profile) (c : Cfg) (h : c.Valid) (t : Target) (ht : RustSrc.selected c = some t) :
    (∀ k w key key' b b' n,
      RustSrc.Leak.leakage pf c.endian t (script (encryptProgram k w key b)) n =
        RustSrc.Leak.leakage pf c.endian t (script (encryptProgram k w key' b')) n ∧
      RustSrc.Leak.leakage pf c.endian t (script (decryptProgram k w key b)) n =
        RustSrc.Leak.leakage pf c.endian t (script (decryptProgram k w key' b')) n) ↔
    (c.constantTime = true ∨ c.Accelerated) := by
  rw [RustSrc.selected_eq] at ht
  have hi := target_table_iff c h t ht
  constructor
  · intro hc
    apply Classical.byContradiction
    intro hn
    obtain rfl := hi.2 hn
    have := C61_table_leaks_key pf c.endian .k128 (Vector.replicate _ 0) (oneAt _ 15) (Vector.replicate _ 0)
      fun n => (hc .k128 .x1 _ _ _ _ n).1
    revert this
    decide +kernel
  · intro hc k w key key' b b' n
    have hne : t ≠ .table := fun e => hi.1 e hc
    have hs : ∀ k w key b, (∀ c ∈ encryptProgram k w key b, silent t c = true) ∧ (∀ c ∈ decryptProgram k w key b, silent t c = true) := by
      intro k w key b
      simp [encryptProgram, decryptProgram, silent, hne]
    simp only [C61_leakage]
    rw [C34_blank t _ (hs k w key b).1, C34_blank t _ (hs k w key' b').1, C34_blank t _ (hs k w key b).2, C34_blank t _ (hs k w key' b').2]
    exact ⟨rfl, rfl⟩

/-! ### Concrete instances -/

/-- Evaluated by the kernel on the translated source, without the model: setting up a key on the bitslice implementation is a run
of 2692 events, ... -/
example : (RustSrc.Leak.leakage .dev .little (.bitslice .little) (script (encryptProgram .k128 .x1 ramp16 ramp16)) 1).length = 2692 := by
  decide +kernel
/-- ... on x86 the program leaks the same for another key, ... -/
example : RustSrc.Leak.leakage .dev .little .x86 (script (encryptProgram .k128 .x1 ramp16 ramp16)) 3 =
    RustSrc.Leak.leakage .dev .little .x86 (script (encryptProgram .k128 .x1 (Vector.replicate _ 0) ramp16)) 3 := by
  decide +kernel
/-- ... and not so on the table-based implementation. -/
example : RustSrc.Leak.leakage .release .little .table (script (encryptProgram .k128 .x1 ramp16 ramp16)) 3 ≠
    RustSrc.Leak.leakage .release .little .table (script (encryptProgram .k128 .x1 (Vector.replicate _ 0) ramp16)) 3 := by
  decide +kernel
/-- The configurations of `C61_every_configuration` occur: the default build of a CPU without AES instructions (not constant
time), and with the feature (constant time). -/
example : RustSrc.selected (sample .table) = some .table ∧ RustSrc.selected (sample (.bitslice .little)) = some (.bitslice .little) := by
  decide +kernel

end Aes
