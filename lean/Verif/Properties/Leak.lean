import Verif.Proofs.LeakClient
import Verif.Properties.KeySchedule
import Verif.Properties.Client
/-!
C34: leakage. `Leak.leakage t client n` is what an observer of timing, branches and memory accesses learns from the first `n`
calls of a client linked against the crate for target `t`, in the source-level model of Verif/Model/Leak.lean: the sequence of
operations with their shift amounts, the outcome of every branch, and the index of every memory access.
-/
namespace Aes
open Rust AesSpec Target Client
open Leak (leakage silent ctEq Event)

/-- C34: the runs with leakage compute what the model computes, for every client on every target (so that the traces below are
traces of the code whose results the other properties are about). -/
theorem C34_erasure (t : Target) (client : Client) (n : Nat) :
    (Leak.run t client n).out = .ok (run (crate t) client n) := Leak.out_run client n

/-- C34: constant time. Two clients whose `k`-th calls have the same shape (the same function on the same variables, with data
of the same lengths, but any bytes, keys and blocks) cannot be told apart by what they leak, if their calls are among the
`silent` ones: on every target but the table-based one, all of the API except formatting and (as `ctEq` says) some `==`. -/
theorem C34_constant_time (t : Target) (client client' : Client) (n : Nat)
    (hshape : ∀ k, k < n →
      (client (observe (crate t) client k)).map Call.blank = (client' (observe (crate t) client' k)).map Call.blank)
    (hsilent : ∀ k, k < n → ∀ c, client (observe (crate t) client k) = some c → silent t c = true) :
    leakage t client n = leakage t client' n := (Leak.leakage_shape client client' n hshape hsilent).1

/-- C34: the same for programs that are just lists of calls: what they leak is what the program leaks that does the same
to zeros. -/
theorem C34_blank (t : Target) (calls : List Call) (h : ∀ c ∈ calls, silent t c = true) (n : Nat) :
    leakage t (script calls) n = leakage t (script (calls.map Call.blank)) n := by
  have len : ∀ (cs : List Call) k, (observe (crate t) (script cs) k).length = min k cs.length := by
    intro cs k
    induction k with
    | zero => simp [observe, run]
    | succ k ih =>
      by_cases hk : k < cs.length
      · have e : script cs (observe (crate t) (script cs) k) = some cs[k] := by
          show cs[(observe (crate t) (script cs) k).length]? = _
          rw [ih, Nat.min_eq_left (by omega)]; simp [hk]
        show (run (crate t) (script cs) (k + 1)).1.length = _
        rw [Leak.run_succ_some e]
        have ih' : (run (crate t) (script cs) k).1.length = _ := ih
        simp only [List.length_append, ih', List.length_singleton]
        omega
      · have e : script cs (observe (crate t) (script cs) k) = none := by
          show cs[(observe (crate t) (script cs) k).length]? = _
          rw [ih]; simp; omega
        show (run (crate t) (script cs) (k + 1)).1.length = _
        rw [Leak.run_succ_none e]
        have ih' : (run (crate t) (script cs) k).1.length = _ := ih
        rw [ih']
        omega
  refine C34_constant_time t _ _ n (fun k _ => ?_) (fun k _ c hc => h c (List.mem_of_getElem? hc))
  show calls[(observe (crate t) (script calls) k).length]?.map _ =
    (calls.map Call.blank)[(observe (crate t) (script (calls.map Call.blank)) k).length]?.map _
  rw [len, len]
  simp only [List.getElem?_map, List.length_map]
  cases hc : calls[min k calls.length]? with
  | none => rfl
  | some c => exact congrArg some (by cases c <;> first | rfl | simp [Call.blank])

/-- C34, spelled out for the main use: on every target but the table-based one, for each of the three key sizes and each of the
three widths, key setup followed by encryption leaks the same for all keys and all plaintexts. -/
theorem C34_encrypt (t : Target) (ht : t ≠ .table) (k : KeySize) (w : Width) (key key' : Vector U8 k.bytes) (x x' : t.Vec w) :
    (do let e ← Leak.encFromOf t.Block k key; Leak.encryptOf t e w x : Leak.L _).trace =
    (do let e ← Leak.encFromOf t.Block k key'; Leak.encryptOf t e w x' : Leak.L _).trace :=
  (Leak.Same.bind_any (Leak.same_encFromOf ht k key key') fun e e' => Leak.same_encryptOf ht e e' w x x').1
/-- C34, spelled out for decryption. -/
theorem C34_decrypt (t : Target) (ht : t ≠ .table) (k : KeySize) (w : Width) (key key' : Vector U8 k.bytes) (x x' : t.Vec w) :
    (do let e ← Leak.decFromOf t.Block k key; Leak.decryptOf t e w x : Leak.L _).trace =
    (do let e ← Leak.decFromOf t.Block k key'; Leak.decryptOf t e w x' : Leak.L _).trace :=
  (Leak.Same.bind_any (Leak.same_decFromOf ht k key key') fun e e' => Leak.same_decryptOf ht e e' w x x').1

/-! ### The exceptions are needed: the table-based implementation leaks the key -/

theorem key128_of_round_key (t : Target) {k k' : Bytes 16} {e e' : AesEnc t.Block 10} (h : Aes128Enc.from k = .ok e)
    (h' : Aes128Enc.from k' = .ok e') (h0 : e.round_keys[0] = e'.round_keys[0]) : k = k' := by
  obtain ⟨f, hf, hk⟩ := C38_aes128_key t k
  obtain ⟨f', hf', hk'⟩ := C38_aes128_key t k'
  rw [hf] at h; cases h
  rw [hf'] at h'; cases h'
  rw [h0] at hk
  exact Except.ok.inj (hk.symm.trans hk')
theorem key192_of_round_keys (t : Target) {k k' : Bytes 24} {e e' : AesEnc t.Block 12} (h : Aes192Enc.from k = .ok e)
    (h' : Aes192Enc.from k' = .ok e') (h0 : e.round_keys[0] = e'.round_keys[0]) (h1 : e.round_keys[1] = e'.round_keys[1]) :
    k = k' := by
  obtain ⟨f, a, b, hf, ha, hb, hk⟩ := C38_aes192_key t k
  obtain ⟨f', a', b', hf', ha', hb', hk'⟩ := C38_aes192_key t k'
  rw [hf] at h; cases h
  rw [hf'] at h'; cases h'
  rw [h0] at ha
  rw [h1] at hb
  cases Except.ok.inj (ha.symm.trans ha'); cases Except.ok.inj (hb.symm.trans hb')
  exact Vector.toList_inj.mp (hk.trans hk'.symm)
theorem key256_of_round_keys (t : Target) {k k' : Bytes 32} {e e' : AesEnc t.Block 14} (h : Aes256Enc.from k = .ok e)
    (h' : Aes256Enc.from k' = .ok e') (h0 : e.round_keys[0] = e'.round_keys[0]) (h1 : e.round_keys[1] = e'.round_keys[1]) :
    k = k' := by
  obtain ⟨f, a, b, hf, ha, hb, hk⟩ := C38_aes256_key t k
  obtain ⟨f', a', b', hf', ha', hb', hk'⟩ := C38_aes256_key t k'
  rw [hf] at h; cases h
  rw [hf'] at h'; cases h'
  rw [h0] at ha
  rw [h1] at hb
  cases Except.ok.inj (ha.symm.trans ha'); cases Except.ok.inj (hb.symm.trans hb')
  exact Vector.toList_inj.mp (hk.trans hk'.symm)

/-- C34: on the table-based implementation the leakage of encrypting one known block determines the whole key: two keys with
the same trace on the same plaintext are equal. -/
theorem C34_table_leaks_key (x : Table.Block) :
    (∀ (k k' : Bytes 16) (e e' : AesEnc Table.Block 10), Aes128Enc.from k = .ok e → Aes128Enc.from k' = .ok e' →
      (Leak.encrypt id e x).trace = (Leak.encrypt id e' x).trace → k = k') ∧
    (∀ (k k' : Bytes 24) (e e' : AesEnc Table.Block 12), Aes192Enc.from k = .ok e → Aes192Enc.from k' = .ok e' →
      (Leak.encrypt id e x).trace = (Leak.encrypt id e' x).trace → k = k') ∧
    (∀ (k k' : Bytes 32) (e e' : AesEnc Table.Block 14), Aes256Enc.from k = .ok e → Aes256Enc.from k' = .ok e' →
      (Leak.encrypt id e x).trace = (Leak.encrypt id e' x).trace → k = k') := by
  refine ⟨fun k k' e e' h h' ht => ?_, fun k k' e e' h h' ht => ?_, fun k k' e e' h h' ht => ?_⟩
  · exact key128_of_round_key .table h h' (Leak.Table.encrypt_inj (by omega) e e' x ht 0 (by omega))
  · exact key192_of_round_keys .table h h' (Leak.Table.encrypt_inj (by omega) e e' x ht 0 (by omega))
      (Leak.Table.encrypt_inj (by omega) e e' x ht 1 (by omega))
  · exact key256_of_round_keys .table h h' (Leak.Table.encrypt_inj (by omega) e e' x ht 0 (by omega))
      (Leak.Table.encrypt_inj (by omega) e e' x ht 1 (by omega))

/-- C34: the leakage of each round operation of the table-based implementation determines the block it is applied to. -/
theorem C34_table_leaks_state (s s' k k' : Table.Block) :
    ((Leak.Table.enc s k).trace = (Leak.Table.enc s' k').trace → s = s') ∧
    ((Leak.Table.enc_last s k).trace = (Leak.Table.enc_last s' k').trace → s = s') ∧
    ((Leak.Table.dec s k).trace = (Leak.Table.dec s' k').trace → s = s') ∧
    ((Leak.Table.dec_last s k).trace = (Leak.Table.dec_last s' k').trace → s = s') :=
  ⟨Leak.Table.enc_trace_inj, Leak.Table.enc_last_trace_inj, Leak.Table.dec_trace_inj, Leak.Table.dec_last_trace_inj⟩

/-- The bytes of a block that is zero but for one byte. -/
def oneAt (n i : Nat) : Vector U8 n := Vector.ofFn fun j => if j.val = i then 1 else 0
/-- A program that compares zero with zero, and one that compares it with another block. -/
def compareProgram (w : Width) (b : Vector U8 w.size) : List Call := [.new w (Vector.replicate _ 0), .new w b, .eq w 0 1]

/-- C34: where `ctEq` says no, `==` leaks whether the first words (or first blocks) are equal: the derived comparison stops
at the first difference. -/
theorem C34_eq_leaks (t : Target) (w : Width) (h : ctEq t w = false) :
    leakage t (script (compareProgram w (Vector.replicate _ 0))) 3 ≠ leakage t (script (compareProgram w (oneAt _ 0))) 3 := by
  cases t with
  | bitslice e => cases e <;> cases w <;> first | exact absurd h (by decide) | decide +kernel
  | arm is32 => cases is32 <;> cases w <;> first | exact absurd h (by decide) | decide +kernel
  | _ => cases w <;> first | exact absurd h (by decide) | decide +kernel

/-- C34: every call that involves a round function or a key is an exception on the table-based implementation: for each there
are two programs of the same shape with different leakage. -/
theorem C34_table_exceptions :
    (∀ op : BinOp, op = .enc ∨ op = .dec ∨ op = .encLast ∨ op = .decLast → ∀ w : Width, ∃ b b' : Vector U8 w.size,
      leakage .table (script [.new w b, .bin w op 0 0]) 2 ≠ leakage .table (script [.new w b', .bin w op 0 0]) 2) ∧
    (∀ k : KeySize, ∃ key key' : Vector U8 k.bytes,
      leakage .table (script [.encFrom k key]) 1 ≠ leakage .table (script [.encFrom k key']) 1 ∧
      leakage .table (script [.decFrom k key]) 1 ≠ leakage .table (script [.decFrom k key']) 1) ∧
    (∃ b b' : Vector U8 16,
      leakage .table (script [.new .x1 b, .mc 0]) 2 ≠ leakage .table (script [.new .x1 b', .mc 0]) 2 ∧
      leakage .table (script [.new .x1 b, .imc 0]) 2 ≠ leakage .table (script [.new .x1 b', .imc 0]) 2) := by
  refine ⟨fun op h w => ⟨Vector.replicate _ 0, oneAt _ 0, ?_⟩,
    fun k => ⟨Vector.replicate _ 0, oneAt _ (k.bytes - 1), ?_, ?_⟩, ⟨Vector.replicate _ 0, oneAt _ 0, ?_, ?_⟩⟩
  · rcases h with rfl | rfl | rfl | rfl <;> cases w <;> decide +kernel
  · cases k <;> decide +kernel
  · cases k <;> decide +kernel
  · decide +kernel
  · decide +kernel

/-! ### Concrete instances -/

/-- The observer of the leakage model sees the outcome of every branch. -/
example (b b' : Bool) : (Leak.branch b).trace = (Leak.branch b').trace ↔ b = b' := by
  cases b <;> cases b' <;> decide
/-- And the index of every table lookup. -/
example (i j : Fin 256) (v : Vector U32 256) : (Leak.idx .TE0 v i).trace = (Leak.idx .TE0 v j).trace ↔ i = j := by
  simp [Leak.idx, Fin.ext_iff]

/-- A program that sets up a key, encrypts two blocks at a time, decrypts and looks at the result. -/
def cryptProgram (key : Bytes 16) (b : Bytes 32) : List Call :=
  [.encFrom .k128 key, .new .x2 b, .encrypt .k128 .x2 0 1, .decrypter .k128 0, .decrypt .k128 .x2 3 2, .into_bytes .x2 4,
   .store_to .x2 4 (List.replicate 40 7), .bin .x2 .xor 1 4, .is_zero .x2 5]
/-- All its calls are silent on every target but the table-based one. -/
example (key : Bytes 16) (b : Bytes 32) : ∀ c ∈ cryptProgram key b, silent (.bitslice .little) c = true := by
  simp [cryptProgram, silent]
example (key key' : Bytes 16) (b b' : Bytes 32) (n : Nat) : leakage (.bitslice .little) (script (cryptProgram key b)) n =
    leakage (.bitslice .little) (script (cryptProgram key' b')) n := by
  rw [C34_blank _ (cryptProgram key b) (by simp [cryptProgram, silent]), C34_blank _ (cryptProgram key' b') (by simp [cryptProgram, silent])]
  rfl
/-- Setting up the key is a run of 2692 events. -/
example : (leakage (.bitslice .little) (script (cryptProgram ramp16 (Vector.replicate 32 0))) 1).length = 2692 := by decide +kernel

end Aes
