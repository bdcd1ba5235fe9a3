import Verif.Proofs.ClientProofs
import Verif.Proofs.ClientRv32
import Verif.Properties.NoFault
import Verif.Proofs.Decide
/-!
C29, C44: whole client programs. `observe (crate t) client n` is everything the client `client` sees in its first `n` calls
when it is linked against the crate built for target `t`; a client chooses each call (with all its data arguments) depending on
everything it has seen before. `Client.aes` is the reference of `Verif/Spec/Reference.lean`: plain bytes and FIPS-197.
-/
namespace Aes
open Rust AesSpec Fips197 Target Client

/-! ### C29 -/

/-- C29: on every target but riscv32 and big-endian constant-time builds, no client can tell the crate from the
reference. -/
theorem C29_refines_aes (t : Target) (ht : t ≠ .riscv32) (hb : t ≠ .bitslice .big) (client : Client) (n : Nat) :
    observe (crate t) client n = observe aes client n := by
  have h : (fun k : KeySize => keyExpansion k.words (n := k.bytes)) = tsched t := by
    funext k key
    unfold tsched
    rw [temp_std t ht hb, keyExpansionWith_std']
  exact congrArg Prod.fst (run_conc client (.inl ht) (.inl h) n)
/-- C29: portability. Any two of these targets show every client the same. -/
theorem C29_portable (t t' : Target) (ht : t ≠ .riscv32) (hb : t ≠ .bitslice .big) (ht' : t' ≠ .riscv32)
    (hb' : t' ≠ .bitslice .big) (client : Client) (n : Nat) :
    observe (crate t) client n = observe (crate t') client n := by
  rw [C29_refines_aes t ht hb, C29_refines_aes t' ht' hb']

/-- C29: on a big-endian constant-time build the crate is the reference with another key schedule (that of C42) and nothing
else. -/
theorem C29_big_endian (client : Client) (n : Nat) : observe (crate (.bitslice .big)) client n =
    observe (reference fun k => keyExpansionWith (bigTemp k.words) k.words) client n :=
  congrArg Prod.fst (run_conc (t := .bitslice .big) client (.inl (by decide)) (.inl (by funext k key; rfl)) n)

/-- C29: on riscv32 with `zkne` and `zknd` the crate is exactly the byte machine `rv32` of `Verif/Spec/Rv32Reference.lean` (the
deviations of C41 and no others). -/
theorem C29_riscv32 (client : Client) (n : Nat) : observe (crate .riscv32) client n = observe rv32 client n :=
  rvHom.observe client n

/-- What each target is, on plain bytes. -/
def Client.spec : Target → Impl
  | .riscv32 => rv32
  | .bitslice .big => reference fun k => keyExpansionWith (bigTemp k.words) k.words
  | _ => aes
/-- C29: on every target, without exception, the crate shows every client what the corresponding machine on plain bytes does. -/
theorem C29_every_target (t : Target) (client : Client) (n : Nat) : observe (crate t) client n = observe (Client.spec t) client n := by
  rcases t with _ | e | _ | _ | _ | _ | _ | _
  · exact C29_refines_aes _ (by decide) (by decide) client n
  · cases e
    · exact C29_refines_aes _ (by decide) (by decide) client n
    · exact C29_big_endian client n
  · exact C29_refines_aes _ (by decide) (by decide) client n
  · exact C29_refines_aes _ (by decide) (by decide) client n
  · exact C29_refines_aes _ (by decide) (by decide) client n
  · exact C29_refines_aes _ (by simp) (by simp) client n
  · exact C29_refines_aes _ (by decide) (by decide) client n
  · exact C29_riscv32 client n

/-- Calls that involve neither keyed objects nor the operations that are wrong on riscv32 (C41). -/
def portableCall : Call → Bool
  | .bin _ .dec _ _ | .bin _ .decLast _ _ => false
  | .chain_enc .. | .chain_dec .. | .mc .. | .imc .. => false
  | .encFrom .. | .decFrom .. | .decrypter .. | .encrypter .. | .encrypt .. | .decrypt .. | .formatE .. | .formatD .. => false
  | _ => true

theorem portable_everywhere (c : Call) (h : portableCall c = true) : c.everywhere = true ∧ c.keyless = true := by
  cases c with
  | bin w op i j => cases op <;> first | exact ⟨rfl, rfl⟩ | cases h
  | _ => first | exact ⟨rfl, rfl⟩ | cases h

/-- C29: a client that only uses conversions, stores, bit operators, comparisons, tuples, formatting, `enc` and `enc_last`
sees the same on every target, riscv32 and big-endian included. -/
theorem C29_data_portable (t : Target) (client : Client) (h : ∀ seen c, client seen = some c → portableCall c = true) (n : Nat) :
    observe (crate t) client n = observe aes client n :=
  congrArg Prod.fst (run_conc client (.inr fun seen c hc => (portable_everywhere c (h seen c hc)).1)
    (.inr fun seen c hc => (portable_everywhere c (h seen c hc)).2) n)

/-- A client that issues the given calls whatever it sees. -/
def script (l : List Call) : Client := fun seen => l[seen.length]?

/-- The bytes 0, 1, ..., 15. -/
def ramp16 : Bytes 16 := Vector.ofFn fun i => BitVec.ofNat 8 i.val

/-- C29: the exception of riscv32 is needed. Three calls show the difference. -/
theorem C29_riscv32_refuted : ∃ client n, observe (crate .riscv32) client n ≠ observe aes client n :=
  ⟨script [.new .x1 ramp16, .mc 0, .into_bytes .x1 1], 3, by decide +kernel⟩

/-- C29: so is the exception of big-endian constant-time builds: encrypting one block shows the difference. -/
theorem C29_big_endian_refuted : ∃ client n, observe (crate (.bitslice .big)) client n ≠ observe aes client n := by
  refine ⟨script [.encFrom .k128 ramp16, .new .x1 ramp16, .encrypt .k128 .x1 0 1, .into_bytes .x1 2], 4, ?_⟩
  rw [← C29_refines_aes .table (by decide) (by decide)]
  decide +kernel

/-- C29: exactly two targets are not AES. -/
theorem C29_is_aes_iff (t : Target) :
    (∀ client n, observe (crate t) client n = observe aes client n) ↔ t ≠ .riscv32 ∧ t ≠ .bitslice .big := by
  constructor
  · intro h
    constructor
    · rintro rfl
      obtain ⟨c, n, hc⟩ := C29_riscv32_refuted
      exact hc (h c n)
    · rintro rfl
      obtain ⟨c, n, hc⟩ := C29_big_endian_refuted
      exact hc (h c n)
  · exact fun h client n => C29_refines_aes t h.1 h.2 client n

/-! ### C44 -/

/-- The documented misuses: storing into too short a slice, and a chain over no keys. -/
def misuse : Call → Prop
  | .store_to w _ dst => dst.length < w.size
  | .chain_enc _ _ keys => keys = []
  | .chain_dec _ _ keys => keys = []
  | _ => False

theorem need_fault {I : Impl} {α : Type} {s : Store I} {a : Option α} {f : α → Obs × Store I} {x : Fault} {P : Prop}
    (h : (need s a f).1 = .fault x) (hf : ∀ y, a = some y → (f y).1 = .fault x → P) : P := by
  cases a with
  | none => cases h
  | some y => exact hf y rfl h
theorem retM_fault {I : Impl} {α : Type} {s : Store I} {m : M α} {v : α → List (Val I)} {x : Fault}
    (h : (retM s m v).1 = .fault x) : m = .error x := by
  cases m with
  | ok y => cases h
  | error e => cases h; rfl
theorem seeM_fault {I : Impl} {α : Type} {s : Store I} {m : M α} {v : α → Obs} {x : Fault} (hv : ∀ y, v y ≠ .fault x)
    (h : (seeM s m v).1 = .fault x) : m = .error x := by
  cases m with
  | ok y => exact absurd h (hv y)
  | error e => cases h; rfl
theorem retM_keeps {I : Impl} {α : Type} {s : Store I} {m : M α} {v : α → List (Val I)} {x : Fault}
    (h : (retM s m v).1 = .fault x) : (retM s m v).2 = s := by rw [retM_fault h]; rfl
theorem not_fault {α : Type} {m : M α} {x : Fault} {P : Prop} (h : ∃ y, m = .ok y) (h' : m = .error x) : P := by
  obtain ⟨y, hy⟩ := h; rw [hy] at h'; cases h'

theorem vecs?_nil {I : Impl} {s : Store I} {w : Width} {l : List Nat} (h : s.vecs? w l = some []) : l = [] := by
  cases l with
  | nil => rfl
  | cons i l =>
    unfold Store.vecs? at h
    cases h1 : s.vec? w i <;> cases h2 : s.vecs? w l <;> rw [h1, h2] at h <;> cases h

theorem format1_total (t : Target) (st : Style) (o : Fmt.Opts) (x : t.Block) : ∃ y, Fmt.format (styleOf (B := t.Block) st x o) = .ok y := by
  have h1 := format1_conc (t := t) st o (LawfulVec.view (T := t.Block) x)
  rw [LawfulVec.ofB_view] at h1
  exact ⟨_, h1⟩
theorem format2_total (t : Target) (o : Fmt.Opts) (x : t.X2) : ∃ y, Fmt.format (Fmt.debugX2 (X2 := t.X2) x o) = .ok y := by
  have h1 := format2_conc (t := t) o (LawfulVec.view (T := t.X2) x)
  rw [LawfulVec.ofB_view] at h1
  exact ⟨_, h1⟩
theorem format4_total (t : Target) (o : Fmt.Opts) (x : t.X4) : ∃ y, Fmt.format (Fmt.debugX4 (X4 := t.X4) x o) = .ok y := by
  have h1 := format4_conc (t := t) o (LawfulVec.view (T := t.X4) x)
  rw [LawfulVec.ofB_view] at h1
  exact ⟨_, h1⟩

/-- C44: in any state whatever and on every target, a call faults only by a panic and only if it is a documented misuse. -/
theorem C44_fault_is_misuse (t : Target) (s : Store (crate t)) (c : Call) (f : Fault)
    (h : (step (crate t) s c).1 = .fault f) : f = .panic ∧ misuse c := by
  have rp := rounds_pos
  cases c with
  | clone i => exact need_fault h fun _ _ h => by cases h
  | new w b => exact not_fault ⟨_, LawfulVec.new_eq (T := t.Vec w) b⟩ (retM_fault h)
  | from_bytes w b => exact not_fault ⟨_, LawfulVec.from_bytes_eq (T := t.Vec w) b⟩ (retM_fault h)
  | from_ref w b => exact not_fault ⟨_, LawfulVec.from_bytes_eq (T := t.Vec w) b⟩ (retM_fault h)
  | try_from w b =>
    have h1 : (crate t).try_from w b = _ := try_from_conc (t := t) w b
    simp only [step] at h
    rw [h1] at h
    by_cases hl : w.size ≤ b.length
    · simp only [if_pos hl, retTry] at h; cases h
    · simp only [if_neg hl, retTry] at h; cases h
  | zero w => cases h
  | default_ w => cases h
  | into_bytes w i =>
    exact need_fault h fun x _ h => not_fault ⟨_, into_bytes_eq (T := t.Vec w) x⟩ (seeM_fault (fun _ h => by cases h) h)
  | store_to w i dst =>
    refine need_fault h fun x _ h => ?_
    have h1 := seeM_fault (fun _ h => by cases h) h
    have h2 := C21_store_to_panics_iff t w x dst
    cases f with
    | panic => exact ⟨rfl, h2.1.mp h1⟩
    | ub => exact absurd h1 h2.2
  | is_zero w i => exact need_fault h fun _ _ h => by cases h
  | eq w i j => exact need_fault h fun _ _ h => need_fault h fun _ _ h => by cases h
  | bin w op i j => exact need_fault h fun _ _ h => need_fault h fun _ _ h => by cases h
  | assign w op i j => exact need_fault h fun _ _ h => need_fault h fun _ _ h => by cases h
  | not w i => exact need_fault h fun _ _ h => by cases h
  | chain_enc w i ks =>
    refine need_fault h fun x _ h => need_fault h fun ks' hks h => ?_
    have h1 := retM_fault h
    have h2 := C16_panics_iff_empty t w x ks'
    cases f with
    | panic => exact ⟨rfl, vecs?_nil (h2.1.mp h1 ▸ hks)⟩
    | ub => exact absurd h1 h2.2.2.1
  | chain_dec w i ks =>
    refine need_fault h fun x _ h => need_fault h fun ks' hks h => ?_
    have h1 := retM_fault h
    have h2 := C16_panics_iff_empty t w x ks'
    cases f with
    | panic => exact ⟨rfl, vecs?_nil (h2.2.1.mp h1 ▸ hks)⟩
    | ub => exact absurd h1 h2.2.2.2
  | mc i => exact need_fault h fun _ _ h => by cases h
  | imc i => exact need_fault h fun _ _ h => by cases h
  | from_u128 n => exact not_fault ⟨_, from_u128_conc (t := t) n⟩ (retM_fault h)
  | into_u128 i =>
    exact need_fault h fun x _ h => not_fault ⟨_, (view_toBe (B := t.Block) x).1⟩ (seeM_fault (fun _ h => by cases h) h)
  | from_pair i j => exact need_fault h fun _ _ h => need_fault h fun _ _ h => by cases h
  | to_pair i => exact need_fault h fun _ _ h => by cases h
  | from_block2 i => exact need_fault h fun _ _ h => by cases h
  | from_quad i j k l =>
    exact need_fault h fun _ _ h => need_fault h fun _ _ h => need_fault h fun _ _ h => need_fault h fun _ _ h => by cases h
  | to_quad i => exact need_fault h fun _ _ h => by cases h
  | from_x2_pair i j => exact need_fault h fun _ _ h => need_fault h fun _ _ h => by cases h
  | to_x2_pair i => exact need_fault h fun _ _ h => by cases h
  | from_block4 i => exact need_fault h fun _ _ h => by cases h
  | from_x2 i => exact need_fault h fun _ _ h => by cases h
  | format1 st o i =>
    exact need_fault h fun x _ h => not_fault (format1_total t st o x) (seeM_fault (fun _ h => by cases h) h)
  | format2 o i =>
    exact need_fault h fun x _ h => not_fault (format2_total t o x) (seeM_fault (fun _ h => by cases h) h)
  | format4 o i =>
    exact need_fault h fun x _ h => not_fault (format4_total t o x) (seeM_fault (fun _ h => by cases h) h)
  | encFrom k key => exact not_fault ⟨_, encFrom_conc (t := t) k key⟩ (retM_fault h)
  | decFrom k key => exact not_fault ⟨_, decFrom_conc (t := t) k key⟩ (retM_fault h)
  | decrypter k i => exact need_fault h fun e _ h => not_fault ⟨_, decrypter_ok (rp k) e⟩ (retM_fault h)
  | encrypter k i => exact need_fault h fun d _ h => not_fault ⟨_, encrypter_ok (rp k) d⟩ (retM_fault h)
  | encrypt k w e i =>
    refine need_fault h fun e _ h => need_fault h fun x _ h => ?_
    have hd : AesDec t.Block k.rounds := ⟨e.round_keys⟩
    cases w with
    | x1 => exact not_fault (C32_one_block t (rp k) e hd x).1 (retM_fault h)
    | x2 => exact not_fault (C32_two_blocks t (rp k) e hd x).1 (retM_fault h)
    | x4 => exact not_fault (C32_four_blocks t (rp k) e hd x).1 (retM_fault h)
  | decrypt k w d i =>
    refine need_fault h fun d _ h => need_fault h fun x _ h => ?_
    have he : AesEnc t.Block k.rounds := ⟨d.round_keys⟩
    cases w with
    | x1 => exact not_fault (C32_one_block t (rp k) he d x).2 (retM_fault h)
    | x2 => exact not_fault (C32_two_blocks t (rp k) he d x).2 (retM_fault h)
    | x4 => exact not_fault (C32_four_blocks t (rp k) he d x).2 (retM_fault h)
  | formatE k o i =>
    exact need_fault h fun e _ h => not_fault ⟨_, Fmt.emits_format (emits_cipher t o _ e.round_keys)⟩
      (seeM_fault (fun _ h => by cases h) h)
  | formatD k o i =>
    exact need_fault h fun d _ h => not_fault ⟨_, Fmt.emits_format (emits_cipher t o _ d.round_keys)⟩
      (seeM_fault (fun _ h => by cases h) h)

theorem length_run (I : Impl) (client : Client) (n : Nat) : (run I client n).1.length ≤ n := by
  induction n with
  | zero => exact Nat.le_refl 0
  | succ n ih =>
    simp only [run]
    cases client (run I client n).1 with
    | none => exact Nat.le_succ_of_le ih
    | some c => simp only [List.length_append, List.length_cons, List.length_nil]; omega

/-- C44: in every history of calls, on every target: an observed fault is a panic, and the call that caused it was a
documented misuse. In particular no client without `unsafe` code can reach undefined behaviour. -/
theorem C44_history (t : Target) (client : Client) (n k : Nat) (f : Fault)
    (h : (observe (crate t) client n)[k]? = some (.fault f)) :
    f = .panic ∧ ∃ c, client ((observe (crate t) client n).take k) = some c ∧ misuse c := by
  unfold observe at h ⊢
  induction n with
  | zero => cases h
  | succ n ih =>
    simp only [run] at h ⊢
    cases hc : client (run (crate t) client n).1 with
    | none => simp only [hc] at h ⊢; exact ih h
    | some c =>
      simp only [hc] at h ⊢
      by_cases hk : k < (run (crate t) client n).1.length
      · rw [List.getElem?_append_left hk] at h
        rw [List.take_append_of_le_length (Nat.le_of_lt hk)]
        exact ih h
      · by_cases hk2 : k = (run (crate t) client n).1.length
        · subst hk2
          rw [List.getElem?_append_right (Nat.le_refl _)] at h
          simp only [Nat.sub_self, List.getElem?_cons_zero, Option.some.injEq] at h
          obtain ⟨h1, h2⟩ := C44_fault_is_misuse t _ c f h
          exact ⟨h1, c, by rw [List.take_left]; exact hc, h2⟩
        · rw [List.getElem?_eq_none (by simp only [List.length_append, List.length_cons, List.length_nil]; omega)] at h
          cases h

/-- C44: conversely, each misuse of an existing value panics. -/
theorem C44_misuse_panics (t : Target) (s : Store (crate t)) (w : Width) (i : Nat) (x : t.Vec w) (hx : s.vec? w i = some x)
    (dst : List U8) (hd : dst.length < w.size) :
    (step (crate t) s (.store_to w i dst)).1 = .fault .panic ∧
    (step (crate t) s (.chain_enc w i [])).1 = .fault .panic ∧ (step (crate t) s (.chain_dec w i [])).1 = .fault .panic := by
  have h1 : (crate t).store_to w x dst = _ := C21_store_to_short t w x dst hd
  have h2 : (crate t).chain_enc w x [] = _ := chain_enc_nil (T := t.Vec w) x
  have h3 : (crate t).chain_dec w x [] = _ := chain_dec_nil (T := t.Vec w) x
  simp only [step, Store.vecs?, hx, need]
  rw [h1, h2, h3]
  exact ⟨rfl, rfl, rfl⟩

/-- C44: a call that faults leaves all variables as they were. -/
theorem C44_fault_keeps_state (t : Target) (s : Store (crate t)) (c : Call) (f : Fault)
    (h : (step (crate t) s c).1 = .fault f) : (step (crate t) s c).2 = s := by
  obtain ⟨rfl, hm⟩ := C44_fault_is_misuse t s c f h
  cases c with
  | store_to w i dst =>
    simp only [step] at h ⊢
    cases hx : s.vec? w i with
    | none => rw [hx] at h; cases h
    | some x =>
      rw [hx] at h
      simp only [need] at h ⊢
      cases hm : (crate t).store_to w x dst <;> rfl
  | chain_enc w i ks =>
    cases (hm : ks = [])
    simp only [step, Store.vecs?] at h ⊢
    cases hx : s.vec? w i with
    | none => rw [hx] at h; cases h
    | some x =>
      rw [hx] at h
      simp only [need] at h ⊢
      exact retM_keeps h
  | chain_dec w i ks =>
    cases (hm : ks = [])
    simp only [step, Store.vecs?] at h ⊢
    cases hx : s.vec? w i with
    | none => rw [hx] at h; cases h
    | some x =>
      rw [hx] at h
      simp only [need] at h ⊢
      exact retM_keeps h
  | _ => exact hm.elim

/-! ### Concrete instances -/

/-- An adaptive client: it encrypts a block, reads the ciphertext, and asks for the next operation only if that starts
with a certain byte. -/
def exClient : Client := fun seen =>
  match seen with
  | [] => some (.encFrom .k128 ramp16)
  | [_] => some (.new .x1 ramp16)
  | [_, _] => some (.encrypt .k128 .x1 0 1)
  | [_, _, _] => some (.into_bytes .x1 2)
  | [_, _, _, .bytes (b :: _)] => if b = 0x0a#8 then some (.store_to .x1 2 [0#8]) else none
  | _ => none
/-- What it sees (by `C29_refines_aes`, on every listed target), the last thing being a panic. -/
example : observe (crate .table) exClient 5 = [.done, .done, .done,
    .bytes [0x0a#8, 0x94#8, 0x0b#8, 0xb5#8, 0x41#8, 0x6e#8, 0xf0#8, 0x45#8, 0xf1#8, 0xc3#8, 0x94#8, 0x58#8, 0xc6#8, 0x53#8,
      0xea#8, 0x5a#8],
    .fault .panic] := by decide +kernel
/-- `C29_riscv32` on a whole conversation: set up a 192-bit key, convert to a decrypter and back, encrypt two blocks, and read
the result. -/
def exRv : Client := script [.encFrom .k192 (Vector.ofFn fun i => BitVec.ofNat 8 (7 * i.val)), .decrypter .k192 0, .encrypter .k192 1,
  .new .x2 (Vector.ofFn fun i => BitVec.ofNat 8 (3 * i.val)), .encrypt .k192 .x2 2 3, .into_bytes .x2 4, .decrypt .k192 .x2 1 4,
  .into_bytes .x2 5]
example : (observe (crate .riscv32) exRv 8).length = 8 ∧ observe (crate .riscv32) exRv 8 = observe rv32 exRv 8 :=
  ⟨by decide +kernel, C29_riscv32 exRv 8⟩
end Aes
