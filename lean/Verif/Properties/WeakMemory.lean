import Verif.Proofs.WeakMemory
import Verif.Properties.Threads
/-!
C67: the threads of C53 on a memory that is not sequentially consistent (`Verif/Spec/WeakMemory.lean`): a load may return what the thread
itself stored there last or anything another thread stores there, at any time. Store buffers, reordering and caches of real
machines give no more than that. The threads of the crate cannot tell the difference, and their actions never race.
-/
namespace Aes
open Rust AesSpec Fips197 AesVec AesBlock Target Client Store Threads

/-- C67, for arbitrary threads: if no thread stores where another one loads or stores, then every execution on any coherent memory ends exactly
where the sequentially consistent one does in which the threads take turns as in the trace. -/
theorem C67_any_memory (s : System) (R S : Nat → Nat → Prop) (h : ∀ i, (s.threads i).Within (R i) (S i))
    (hd : ∀ i j, i ≠ j → ∀ a, S i a → ¬ R j a ∧ ¬ S j a) (trace : List (Nat × Action)) (s' : System) (hr : WeakRun s trace s') :
    s' = s.exec (trace.map Prod.fst) := (weak_is_sc h hd hr).symm

/-- C67: the weak memory allows every sequentially consistent execution, of any threads: what is claimed of all weak executions is
claimed of these too. -/
theorem C67_sc (s : System) (schedule : List Nat) : ∃ trace, WeakRun s trace (s.exec schedule) := sc_is_weak s schedule

/-- The claims of C67 about a state that threads which apply `f` to the 16-byte blocks of their chunks are in, after these actions. -/
structure RunsOnAnyMemory (f : Bytes 16 → Bytes 16) (work : List (List Chunk)) (m : Memory) (trace : List (Nat × Action)) (s : System)
    (extra : Nat := 0) : Prop where
  /-- No two different threads make conflicting actions: there is no data race. -/
  raceFree : ∀ i j x y, i ≠ j → (i, x) ∈ trace → (j, y) ∈ trace → ¬ Conflict x y
  /-- Memory that no chunk is to be stored to is as it was. -/
  untouched : ∀ a, (∀ c ∈ work.flatten, ¬ c.writes a) → s.memory a = m a
  /-- Every byte that a chunk is to be stored to is as it was or already what it is to become. -/
  old_or_new : ∀ c ∈ work.flatten, ∀ a, c.writes a → s.memory a = m a ∨ s.memory a = processed f m c a
  /-- A thread that has finished has returned (not panicked), and all its chunks are in place. -/
  finished : ∀ i r, s.threads i = .done r →
    r = .ok () ∧ ∀ c ∈ work.getD i [], ∀ a, c.writes a → s.memory a = processed f m c a
  /-- A thread has finished when it has made as many actions as it has bytes to load and store. -/
  finishes : ∀ i, ((work.getD i []).map fun c => 2 * c.w.size + extra).sum ≤ (actionsOf i trace).length → ∃ r, s.threads i = .done r

theorem runsOnAnyMemory {t : Target} {f : (w : Width) → Vector U8 w.size → M (t.Vec w)} {g : Bytes 16 → Bytes 16}
    {work : List (List Chunk)} {m : Memory} (hap : work.flatten.Pairwise Apart) (h : RunsInParallel g work m (start t f work m).exec)
    (trace : List (Nat × Action)) (s : System) (hr : WeakRun (start t f work m) trace s) : RunsOnAnyMemory g work m trace s := by
  obtain ⟨-, hap2⟩ := apart_threads hap
  have hw : ∀ i, ((start t f work m).threads i).Within (fun a => ∃ c ∈ work.getD i [], c.reads a) (fun a => ∃ c ∈ work.getD i [], c.writes a) :=
    fun i => worker_within _
  have hd : ∀ i j, i ≠ j → ∀ a, (∃ c ∈ work.getD i [], c.writes a) →
      ¬ (∃ c ∈ work.getD j [], c.reads a) ∧ ¬ (∃ c ∈ work.getD j [], c.writes a) := fun i j hij a ⟨c, hc, ha⟩ =>
    ⟨fun ⟨d, hd, hda⟩ => ((hap2 i j hij c hc d hd a).1 ha).1 hda, fun ⟨d, hd, hda⟩ => ((hap2 i j hij c hc d hd a).1 ha).2 hda⟩
  have e := weak_is_sc hw hd hr
  refine ⟨fun i j x y hij hx hy => no_conflict hw hd hr.does hij hx hy, ?_, ?_, ?_, fun i hi => ?_⟩
  · rw [← e]; exact h.untouched _
  · rw [← e]; exact h.old_or_new _
  · rw [← e]; exact h.finished _
  · rw [← e]; exact h.finishes _ i (by rw [count_actions]; exact hi)

/-- C67: threads that encrypt chunks of any widths under one key, in buffers that do not overlap, on any coherent memory: no data race, and
memory holds old bytes and AES of old blocks, in the end the latter. Every key size, every target but the two broken ones. -/
theorem C67_encrypt (t : Target) (hrv : t ≠ .riscv32) (hbe : t ≠ .bitslice .big) (k : KeySize) (key : Bytes k.bytes)
    (work : List (List Chunk)) (m : Memory) (hlen : ∀ c ∈ work.flatten, c.w.size ≤ c.dst.len) (hap : work.flatten.Pairwise Apart) :
    ∃ e : AesEnc t.Block k.rounds, encFromOf t.Block k key = .ok e ∧
      ∀ trace s, WeakRun (start t (encryptBytes e) work m) trace s → RunsOnAnyMemory (aesOf k key) work m trace s := by
  obtain ⟨e, he, h⟩ := C53_encrypt t hrv hbe k key work m hlen hap
  exact ⟨e, he, runsOnAnyMemory hap h⟩
/-- C67: the same for decryption. -/
theorem C67_decrypt (t : Target) (hrv : t ≠ .riscv32) (hbe : t ≠ .bitslice .big) (k : KeySize) (key : Bytes k.bytes)
    (work : List (List Chunk)) (m : Memory) (hlen : ∀ c ∈ work.flatten, c.w.size ≤ c.dst.len) (hap : work.flatten.Pairwise Apart) :
    ∃ d : AesDec t.Block k.rounds, decFromOf t.Block k key = .ok d ∧
      ∀ trace s, WeakRun (start t (decryptBytes d) work m) trace s → RunsOnAnyMemory (aesInvOf k key) work m trace s := by
  obtain ⟨d, hd, h⟩ := C53_decrypt t hrv hbe k key work m hlen hap
  exact ⟨d, hd, runsOnAnyMemory hap h⟩
/-- C67 on every target, the two broken ones included, and for every encrypter, made from a key or not. -/
theorem C67_encrypt_every_target (t : Target) {nr : Nat} (hnr : 0 < nr) (e : AesEnc t.Block nr)
    (work : List (List Chunk)) (m : Memory) (hlen : ∀ c ∈ work.flatten, c.w.size ≤ c.dst.len) (hap : work.flatten.Pairwise Apart) :
    ∃ g : Bytes 16 → Bytes 16,
      (∀ x, (do let b : t.Block ← from_bytes x; let c ← e.encrypt_block b; into_bytes c) = .ok (g x)) ∧
      ∀ trace s, WeakRun (start t (encryptBytes e) work m) trace s → RunsOnAnyMemory g work m trace s := by
  obtain ⟨g, hg, h⟩ := C53_encrypt_every_target t hnr e work m hlen hap
  exact ⟨g, hg, runsOnAnyMemory hap h⟩
/-- C67 on every target: the same for every decrypter. -/
theorem C67_decrypt_every_target (t : Target) {nr : Nat} (hnr : 0 < nr) (d : AesDec t.Block nr)
    (work : List (List Chunk)) (m : Memory) (hlen : ∀ c ∈ work.flatten, c.w.size ≤ c.dst.len) (hap : work.flatten.Pairwise Apart) :
    ∃ g : Bytes 16 → Bytes 16,
      (∀ x, (do let b : t.Block ← from_bytes x; let c ← d.decrypt_block b; into_bytes c) = .ok (g x)) ∧
      ∀ trace s, WeakRun (start t (decryptBytes d) work m) trace s → RunsOnAnyMemory g work m trace s := by
  obtain ⟨g, hg, h⟩ := C53_decrypt_every_target t hnr d work m hlen hap
  exact ⟨g, hg, runsOnAnyMemory hap h⟩

/-! ### Concrete instances -/

/-- The hypotheses are met: the work of C53, whatever the memory, has an execution in which all threads finish. -/
example (m : Memory) : ∃ (e : AesEnc Target.table.Block KeySize.k192.rounds), encFromOf Target.table.Block .k192 exKey192 = .ok e ∧
    ∃ trace s, WeakRun (start .table (encryptBytes e) exWork m) trace s ∧ ∀ i, ∃ r, s.threads i = .done r := by
  obtain ⟨e, he, h⟩ := C53_encrypt .table (by decide) (by decide) .k192 exKey192 exWork m (by decide) exWork_apart
  obtain ⟨tr, htr⟩ := C67_sc (start .table (encryptBytes e) exWork m) (List.replicate 160 0 ++ List.replicate 160 1)
  refine ⟨e, he, tr, _, htr, fun i => h.finishes (List.replicate 160 0 ++ List.replicate 160 1) i ?_⟩
  match i with
  | 0 => decide +kernel
  | 1 => decide +kernel
  | i + 2 => exact Nat.zero_le _

/-- Two threads, each of which sets its own byte and then looks at the other's; it panics if it finds it still zero. -/
def look (mine other : Nat) : Prog := .store (mine, 1) (.load other fun v => .done (if v = 0 then .error .panic else .ok ()))
def storeBuffers : System := ⟨fun i => if i = 0 then look 0 1 else if i = 1 then look 1 0 else .done (.ok ()), fun _ => 0⟩
/-- The memory really is weak: both may see zero there, as on x86 … -/
example : WeakRun storeBuffers [(0, .store 0 1), (0, .load 1 0), (1, .store 1 1), (1, .load 0 0)]
    ⟨fun i => .done (if i < 2 then .error .panic else .ok ()), fun a => if a < 2 then 1 else 0⟩ := by
  refine ⟨fun i => ?_, ⟨fun pre i a v post e => ?_, fun a => ?_⟩⟩
  · match i with
    | 0 => exact ⟨rfl, rfl, rfl⟩
    | 1 => exact ⟨rfl, rfl, rfl⟩
    | i + 2 =>
      have : (actionsOf (i + 2) [(0, Action.store 0 1), (0, .load 1 0), (1, .store 1 1), (1, .load 0 0)]) = [] := by
        simp [actionsOf]
      rw [this]
      simp [storeBuffers, Prog.does]
  · match pre, e with
    | [_], e => cases e; exact .inl rfl
    | [_, _, _], e => cases e; exact .inl rfl
    | _ :: _ :: _ :: _ :: _ :: _, e => simp at e
  · match a with
    | 0 => exact .inr ⟨0, rfl⟩
    | 1 => exact .inr ⟨1, rfl⟩
    | a + 2 =>
      refine .inl ⟨by simp [storeBuffers], fun j v h => ?_⟩
      simp at h
/-- What is left of `look`, from its start (0), after the store (1), returned (2), panicked (3). -/
def look.left (mine other : Nat) : Fin 4 → Prog
  | 0 => look mine other
  | 1 => .load other fun v => .done (if v = 0 then .error .panic else .ok ())
  | 2 => .done (.ok ())
  | 3 => .done (.error .panic)
set_option linter.unusedSimpArgs false in
/-- … which is not so when the threads take turns: these two threads race, so `C67_any_memory` does not apply. -/
example (schedule : List Nat) : ¬ ∀ i, i < 2 → (storeBuffers.exec schedule).threads i = .done (.error .panic) := by
  have inv : ∀ (l : List Nat) (s : System) (x y : Fin 4), s.threads 0 = look.left 0 1 x → s.threads 1 = look.left 1 0 y →
      (∀ i, s.threads (i + 2) = .done (.ok ())) →
      s.memory 0 = (if x = 0 then 0 else 1) → s.memory 1 = (if y = 0 then 0 else 1) → ¬ (x = 3 ∧ y = 3) →
      ¬ ∀ i, i < 2 → (s.exec l).threads i = .done (.error .panic) := by
    intro l
    induction l with
    | nil =>
      intro s x y hx hy _ _ _ hn h
      have h0 := h 0 (by omega)
      have h1 := h 1 (by omega)
      simp only [System.exec, List.foldl_nil] at h0 h1
      rw [hx] at h0; rw [hy] at h1
      match x, y, h0, h1 with
      | 3, 3, _, _ => exact hn ⟨rfl, rfl⟩
      | 0, _, h, _ => cases h
      | 1, _, h, _ => cases h
      | 2, _, h, _ => cases h
      | 3, 0, _, h => cases h
      | 3, 1, _, h => cases h
      | 3, 2, _, h => cases h
    | cons i l ih =>
      intro s x y hx hy ho mx my hn
      show ¬ ∀ j, j < 2 → ((s.step i).exec l).threads j = .done (.error .panic)
      match i with
      | 0 =>
        match x, hx, mx, hn with
        | 0, hx, mx, hn =>
          refine ih _ 1 y ?_ ?_ ?_ ?_ ?_ (by simp) <;> simp [System.step, Prog.step, look.left, look, apply, hx, hy, mx, my, ho, *]
        | 1, hx, mx, hn =>
          by_cases hy0 : y = 0
          · refine ih _ 3 y ?_ ?_ ?_ ?_ ?_ (by simp [hy0]) <;> simp [System.step, Prog.step, look.left, look, apply, hx, hy, mx, my, ho, *]
          · refine ih _ 2 y ?_ ?_ ?_ ?_ ?_ (by simp) <;> simp [System.step, Prog.step, look.left, look, apply, hx, hy, mx, my, ho, *]
        | 2, hx, mx, hn => refine ih _ 2 y ?_ ?_ ?_ ?_ ?_ hn <;> simp [System.step, Prog.step, look.left, look, apply, hx, hy, mx, my, ho, *]
        | 3, hx, mx, hn => refine ih _ 3 y ?_ ?_ ?_ ?_ ?_ hn <;> simp [System.step, Prog.step, look.left, look, apply, hx, hy, mx, my, ho, *]
      | 1 =>
        match y, hy, my, hn with
        | 0, hy, my, hn =>
          refine ih _ x 1 ?_ ?_ ?_ ?_ ?_ (by simp) <;> simp [System.step, Prog.step, look.left, look, apply, hx, hy, mx, my, ho, *]
        | 1, hy, my, hn =>
          by_cases hx0 : x = 0
          · refine ih _ x 3 ?_ ?_ ?_ ?_ ?_ (by simp [hx0]) <;> simp [System.step, Prog.step, look.left, look, apply, hx, hy, mx, my, ho, *]
          · refine ih _ x 2 ?_ ?_ ?_ ?_ ?_ (by simp) <;> simp [System.step, Prog.step, look.left, look, apply, hx, hy, mx, my, ho, *]
        | 2, hy, my, hn => refine ih _ x 2 ?_ ?_ ?_ ?_ ?_ hn <;> simp [System.step, Prog.step, look.left, look, apply, hx, hy, mx, my, ho, *]
        | 3, hy, my, hn => refine ih _ x 3 ?_ ?_ ?_ ?_ ?_ hn <;> simp [System.step, Prog.step, look.left, look, apply, hx, hy, mx, my, ho, *]
      | i + 2 =>
        refine ih _ x y ?_ ?_ (fun j => ?_) ?_ ?_ hn
        · simp only [System.step]; rw [if_neg (by omega)]; exact hx
        · simp only [System.step]; rw [if_neg (by omega)]; exact hy
        · simp only [System.step, ho, Prog.step]; split <;> rfl
        · simpa [System.step, ho, Prog.step] using mx
        · simpa [System.step, ho, Prog.step] using my
  exact inv schedule storeBuffers 0 0 rfl rfl (fun _ => rfl) rfl rfl (by simp)
end Aes
