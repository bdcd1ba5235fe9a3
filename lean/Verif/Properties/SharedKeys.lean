import Verif.Properties.WeakMemory
/-!
C53 and C67 with the shared encrypter (decrypter) itself in the shared memory: it occupies `n` bytes at address `self`, in whatever
representation the compiler chose (`repr`, which `load` reads back), and every call loads it from there through `&self`. What a thread
needs is that no buffer overlaps it, which is what `&self` next to `&mut [u8]` promises.
-/
namespace Aes
open Rust AesSpec Fips197 AesVec AesBlock Target Client Store Threads

/-- No chunk is stored to the `n` bytes at `self`. -/
def KeepsOff (self n : Nat) (c : Chunk) : Prop := ∀ a, c.writes a → ¬ (self ≤ a ∧ a < self + n)

namespace Threads
variable {t : Target} {self n : Nat} {f : Bytes n → (w : Width) → Bytes w.size → M (t.Vec w)}

theorem Prog.Within.weaken {R S R' S' : Nat → Prop} (hR : ∀ a, R a → R' a) (hS : ∀ a, S a → S' a) :
    ∀ p : Prog, p.Within R S → p.Within R' S' := by
  intro p
  induction p with
  | done r => exact id
  | load a k ih => exact fun h => ⟨hR _ h.1, fun b => ih b (h.2 b)⟩
  | store w k ih => exact fun h => ⟨hS _ h.1, ih h.2⟩

theorem sharedWorker_within (cs : List Chunk) : (sharedWorker t self n f cs).Within
    (fun a => (self ≤ a ∧ a < self + n) ∨ ∃ c ∈ cs, c.reads a) (fun a => ∃ c ∈ cs, c.writes a) := by
  induction cs with
  | nil => exact True.intro
  | cons c cs ih =>
    refine readN_within _ _ _ (fun i hi => .inr ⟨c, List.mem_cons_self, by unfold Chunk.reads; omega⟩) fun b => ?_
    refine readN_within _ _ _ (fun i hi => .inl ⟨by omega, by omega⟩) fun keys => ?_
    cases f keys c.w b with
    | error e => exact True.intro
    | ok y =>
      have ih' := Prog.Within.weaken (R' := fun a => (self ≤ a ∧ a < self + n) ∨ ∃ d ∈ c :: cs, d.reads a)
        (S' := fun a => ∃ d ∈ c :: cs, d.writes a) (fun a h => h.imp id fun ⟨d, hd, h⟩ => ⟨d, List.mem_cons_of_mem c hd, h⟩)
        (fun a ⟨d, hd, h⟩ => ⟨d, List.mem_cons_of_mem c hd, h⟩) _ ih
      refine writes_within _ _ (fun w hw => ?_) ?_
      · by_cases h : c.w.size ≤ c.dst.len
        · rw [store_ok t c.w y c.dst h] at hw
          obtain ⟨h1, h2, -⟩ := mem_writesAt hw
          exact ⟨c, List.mem_cons_self, h1, by simpa using h2⟩
        · rw [store_short t c.w y c.dst (by omega)] at hw; cases hw
      · cases (storeVec t c.w y c.dst).result with
        | ok u => exact ih'
        | error e => exact True.intro

theorem sharedWorker_run (g : (w : Width) → Bytes w.size → Bytes w.size) (m0 : Memory)
    (hf : ∀ w b, f (readMem m0 self n) w b = .ok (ofB (T := t.Vec w) (g w b)))
    (cs : List Chunk) (hlen : ∀ c ∈ cs, c.w.size ≤ c.dst.len) (hap : cs.Pairwise Apart) (hoff : ∀ c ∈ cs, KeepsOff self n c) (m : Memory)
    (hm : ∀ c ∈ cs, ∀ a, c.reads a → m a = m0 a) (hs : ∀ a, self ≤ a ∧ a < self + n → m a = m0 a) :
    (sharedWorker t self n f cs).trace m = cs.flatMap (fun c => writesAt c.dst.ptr (g c.w (readMem m0 c.src c.w.size)).toList) ∧
    (sharedWorker t self n f cs).result m = .ok () ∧
    (sharedWorker t self n f cs).cost m = (cs.map fun c => 2 * c.w.size + n).sum := by
  induction cs generalizing m with
  | nil => exact ⟨rfl, rfl, rfl⟩
  | cons c cs ih =>
    have hr : readMem m c.src c.w.size = readMem m0 c.src c.w.size := by
      apply Vector.ext; intro i hi
      simp only [readMem, Vector.getElem_ofFn]
      exact hm c List.mem_cons_self _ ⟨by omega, by omega⟩
    have hk : readMem m self n = readMem m0 self n := by
      apply Vector.ext; intro i hi
      simp only [readMem, Vector.getElem_ofFn]
      exact hs _ ⟨by omega, by omega⟩
    simp only [sharedWorker]
    rw [(readN_run m c.src c.w.size _).1, (readN_run m c.src c.w.size _).2.1, (readN_run m c.src c.w.size _).2.2,
      (readN_run m self n _).1, (readN_run m self n _).2.1, (readN_run m self n _).2.2, hk, hr]
    simp only [hf, store_ok t c.w _ c.dst (hlen c List.mem_cons_self), perform, LawfulVec.view_ofB]
    obtain ⟨w1, w2, w3⟩ := writes_run (writesAt c.dst.ptr (g c.w (readMem m0 c.src c.w.size)).toList) (sharedWorker t self n f cs) m
    rw [w1, w2, w3]
    have hmem : ∀ w ∈ writesAt c.dst.ptr (g c.w (readMem m0 c.src c.w.size)).toList, c.writes w.1 := fun w hw => by
      obtain ⟨x1, x2, -⟩ := mem_writesAt hw
      exact ⟨by omega, by simp at x2; omega⟩
    obtain ⟨i1, i2, i3⟩ := ih (fun d hd => hlen d (List.mem_cons_of_mem _ hd)) (List.pairwise_cons.mp hap).2
      (fun d hd => hoff d (List.mem_cons_of_mem _ hd))
      (applyAll m (writesAt c.dst.ptr (g c.w (readMem m0 c.src c.w.size)).toList))
      (fun d hd a ha => by
        rw [applyAll_not_mem, hm d (List.mem_cons_of_mem _ hd) a ha]
        intro w hw e
        exact (((List.pairwise_cons.mp hap).1 d hd a).1 (e ▸ hmem w hw)).1 ha)
      (fun a ha => by
        rw [applyAll_not_mem, hs a ha]
        intro w hw e
        exact hoff c List.mem_cons_self a (e ▸ hmem w hw) ha)
    rw [i1, i2, i3]
    refine ⟨rfl, rfl, ?_⟩
    rw [length_writesAt, Vector.length_toList, List.map_cons, List.sum_cons]; omega

/-- What a schedule does, from what each thread does alone. -/
theorem parallel_alone {P : List Chunk → Prog} {Q : Nat → Prop} {cost : Chunk → Nat}
    (g : (w : Width) → Bytes w.size → Bytes w.size) (work : List (List Chunk)) (m : Memory) (hap : work.flatten.Pairwise Apart)
    (hw : ∀ cs, (P cs).Within (fun a => Q a ∨ ∃ c ∈ cs, c.reads a) (fun a => ∃ c ∈ cs, c.writes a))
    (hQ : ∀ c ∈ work.flatten, ∀ a, c.writes a → ¬ Q a)
    (hrun : ∀ i, (P (work.getD i [])).trace m = (work.getD i []).flatMap (fun c => writesAt c.dst.ptr (g c.w (readMem m c.src c.w.size)).toList) ∧
      (P (work.getD i [])).result m = .ok () ∧ (P (work.getD i [])).cost m = ((work.getD i []).map cost).sum)
    (s : System) (hs : s = ⟨fun i => P (work.getD i []), m⟩) (schedule : List Nat) :
    (∀ a, (∀ c ∈ work.flatten, ¬ c.writes a) → (s.exec schedule).memory a = m a) ∧
    (∀ c ∈ work.flatten, ∀ a, c.writes a → (s.exec schedule).memory a = m a ∨ (s.exec schedule).memory a = goal g m c a) ∧
    (∀ i, ((work.getD i []).map cost).sum ≤ schedule.count i → (s.exec schedule).threads i = .done (.ok ()) ∧
      ∀ c ∈ work.getD i [], ∀ a, c.writes a → (s.exec schedule).memory a = goal g m c a) ∧
    (∀ i r, (s.exec schedule).threads i = .done r → ((work.getD i []).map cost).sum ≤ schedule.count i) := by
  obtain ⟨hap1, hap2⟩ := apart_threads hap
  subst hs
  have hni := noninterference (s := ⟨fun i => P (work.getD i []), m⟩) (R := fun i a => Q a ∨ ∃ c ∈ work.getD i [], c.reads a)
    (S := fun i a => ∃ c ∈ work.getD i [], c.writes a) (fun i => hw _) (fun i j hij a ⟨c, hc, ha⟩ =>
      ⟨fun h => h.elim (hQ c (getD_mem_flatten hc) a ha) fun ⟨d, hd, hda⟩ => ((hap2 i j hij c hc d hd a).1 ha).1 hda,
        fun ⟨d, hd, hda⟩ => ((hap2 i j hij c hc d hd a).1 ha).2 hda⟩) schedule
  have huniq : ∀ i, ∀ c ∈ work.getD i [], ∀ a, c.writes a → ∀ w ∈ (work.getD i []).flatMap
      (fun c => writesAt c.dst.ptr (g c.w (readMem m c.src c.w.size)).toList), w.1 = a → w.2 = goal g m c a := by
    intro i c hc a ha w hw e
    obtain ⟨d, hd, hwd⟩ := List.mem_flatMap.mp hw
    obtain ⟨h1, h2, h3⟩ := mem_writesAt hwd
    have hda : d.writes a := ⟨by omega, by rw [Vector.length_toList] at h2; omega⟩
    have hcd : c = d := by
      apply Classical.byContradiction
      intro hne
      obtain ⟨x, hx, hx'⟩ := List.mem_iff_getElem.mp hc
      obtain ⟨y, hy, hy'⟩ := List.mem_iff_getElem.mp hd
      have hp := List.pairwise_iff_getElem.mp (hap1 i)
      rcases Nat.lt_trichotomy x y with hxy | hxy | hxy
      · have := hp x y hx hy hxy
        rw [hx', hy'] at this
        exact ((this a).1 ha).2 hda
      · subst hxy; exact hne (hx'.symm.trans hy')
      · have := hp y x hy hx hxy
        rw [hx', hy'] at this
        exact ((this a).1 hda).2 ha
    subst hcd
    rw [h3, e]; rfl
  have hthr : ∀ c ∈ work.flatten, ∃ i, c ∈ work.getD i [] := by
    intro c hc
    obtain ⟨l, hl, hcl⟩ := List.mem_flatten.mp hc
    obtain ⟨i, hi, hi'⟩ := List.mem_iff_getElem.mp hl
    refine ⟨i, ?_⟩
    rw [List.getD_eq_getElem?_getD, List.getElem?_eq_getElem hi, hi']
    exact hcl
  simp only at hni
  refine ⟨fun a ha => hni.2 a fun i ⟨c, hc, h⟩ => ha c (getD_mem_flatten hc) h, fun c hc a ha => ?_, fun i hi => ?_, fun i r hr => ?_⟩
  · obtain ⟨i, hci⟩ := hthr c hc
    rw [(hni.1 i).2 a (Or.inr ⟨c, hci, ha⟩)]
    obtain ⟨k, hk⟩ := steps_memory (P (work.getD i [])) m (schedule.count i)
    rw [hk, (hrun i).1]
    refine (applyAll_cases m _ a).imp id fun hx => ?_
    obtain ⟨w, hw, h1, h2⟩ := hx
    exact h2.trans (huniq i c hci a ha w (List.mem_of_mem_take hw) h1)
  · have hdone := steps_done (P (work.getD i [])) m (schedule.count i) (by rw [(hrun i).2.2]; exact hi)
    refine ⟨by rw [(hni.1 i).1, hdone, (hrun i).2.1], fun c hc a ha => ?_⟩
    rw [(hni.1 i).2 a (Or.inr ⟨c, hc, ha⟩), hdone, (hrun i).1]
    refine applyAll_mem _ _ _ _ ?_ (huniq i c hc a ha)
    obtain ⟨w, hw, e⟩ := exists_writesAt c.dst.ptr (g c.w (readMem m c.src c.w.size)).toList (a - c.dst.ptr) (by
      rw [Vector.length_toList]; unfold Chunk.writes at ha; omega)
    exact ⟨w, List.mem_flatMap.mpr ⟨c, hc, hw⟩, by rw [e]; unfold Chunk.writes at ha; omega⟩
  · rw [(hni.1 i).1] at hr
    have := steps_not_done _ _ _ _ hr
    rwa [(hrun i).2.2] at this

theorem runsShared (g : Bytes 16 → Bytes 16) (work : List (List Chunk)) (m : Memory)
    (hf : ∀ w b, f (readMem m self n) w b = .ok (ofB (T := t.Vec w) (eachBlock g b)))
    (hlen : ∀ c ∈ work.flatten, c.w.size ≤ c.dst.len) (hap : work.flatten.Pairwise Apart) (hoff : ∀ c ∈ work.flatten, KeepsOff self n c) :
    RunsInParallel g work m (startShared t self n f work m).exec n := by
  have h := fun schedule => parallel_alone (P := sharedWorker t self n f) (Q := fun a => self ≤ a ∧ a < self + n)
    (cost := fun c => 2 * c.w.size + n) (fun _ b => eachBlock g b) work m hap (fun cs => sharedWorker_within cs) hoff
    (fun i => sharedWorker_run (fun _ b => eachBlock g b) m hf _ (fun c hc => hlen c (getD_mem_flatten hc)) ((apart_threads hap).1 i)
      (fun c hc => hoff c (getD_mem_flatten hc)) m (fun _ _ _ _ => rfl) fun _ _ => rfl)
    (startShared t self n f work m) rfl schedule
  refine ⟨fun s => (h s).1, fun s c hc a ha => ?_, fun s i r hr => ?_, fun s i hi => ⟨_, ((h s).2.2.1 i hi).1⟩⟩
  · rw [← goal_eachBlock g m c a ha]; exact (h s).2.1 c hc a ha
  · obtain ⟨h1, h2⟩ := (h s).2.2.1 i ((h s).2.2.2 i r hr)
    rw [h1] at hr
    cases hr
    exact ⟨rfl, fun c hc a ha => by rw [← goal_eachBlock g m c a ha]; exact h2 c hc a ha⟩

theorem sharedOnAnyMemory {g : Bytes 16 → Bytes 16} {work : List (List Chunk)} {m : Memory}
    (hap : work.flatten.Pairwise Apart) (hoff : ∀ c ∈ work.flatten, KeepsOff self n c)
    (h : RunsInParallel g work m (startShared t self n f work m).exec n)
    (trace : List (Nat × Action)) (s : System) (hr : WeakRun (startShared t self n f work m) trace s) : RunsOnAnyMemory g work m trace s n := by
  obtain ⟨-, hap2⟩ := apart_threads hap
  have hw : ∀ i, ((startShared t self n f work m).threads i).Within (fun a => (self ≤ a ∧ a < self + n) ∨ ∃ c ∈ work.getD i [], c.reads a)
      (fun a => ∃ c ∈ work.getD i [], c.writes a) := fun i => sharedWorker_within _
  have hd : ∀ i j, i ≠ j → ∀ a, (∃ c ∈ work.getD i [], c.writes a) →
      ¬ ((self ≤ a ∧ a < self + n) ∨ ∃ c ∈ work.getD j [], c.reads a) ∧ ¬ (∃ c ∈ work.getD j [], c.writes a) := fun i j hij a ⟨c, hc, ha⟩ =>
    ⟨fun h => h.elim (hoff c (getD_mem_flatten hc) a ha) fun ⟨d, hd, hda⟩ => ((hap2 i j hij c hc d hd a).1 ha).1 hda,
      fun ⟨d, hd, hda⟩ => ((hap2 i j hij c hc d hd a).1 ha).2 hda⟩
  have e := weak_is_sc hw hd hr
  refine ⟨fun i j x y hij hx hy => no_conflict hw hd hr.does hij hx hy, ?_, ?_, ?_, fun i hi => ?_⟩
  · rw [← e]; exact h.untouched _
  · rw [← e]; exact h.old_or_new _
  · rw [← e]; exact h.finished _
  · rw [← e]; exact h.finishes _ i (by rw [count_actions]; exact hi)
end Threads

/-- C53 and C67 with the encrypter in memory: the `n` bytes at `self` hold an encrypter made from `key`, in a representation that can be read
back; every call loads it from there. Any number of threads share it, their buffers overlap neither each other's nor the encrypter.
Under every schedule, and in every execution on any coherent memory, memory holds old bytes and AES of old blocks, in the end the
latter; nothing races; and the encrypter is as it was. -/
theorem C67_shared_encrypter (t : Target) (hrv : t ≠ .riscv32) (hbe : t ≠ .bitslice .big) (k : KeySize) (key : Bytes k.bytes) :
    ∃ e : AesEnc t.Block k.rounds, encFromOf t.Block k key = .ok e ∧
    ∀ (n : Nat) (repr : AesEnc t.Block k.rounds → Bytes n) (load : Bytes n → AesEnc t.Block k.rounds), load (repr e) = e →
    ∀ (self : Nat) (work : List (List Chunk)) (m : Memory), readMem m self n = repr e → (∀ c ∈ work.flatten, c.w.size ≤ c.dst.len) →
      work.flatten.Pairwise Apart → (∀ c ∈ work.flatten, KeepsOff self n c) →
      RunsInParallel (aesOf k key) work m (startShared t self n (fun b => encryptBytes (load b)) work m).exec n ∧
      ∀ trace s, WeakRun (startShared t self n (fun b => encryptBytes (load b)) work m) trace s →
        RunsOnAnyMemory (aesOf k key) work m trace s n ∧ readMem s.memory self n = repr e := by
  have := t.lawfulPre hrv
  refine ⟨_, encFrom_conc (t := t) k key, fun n repr load hl self work m hm hlen hap hoff => ?_⟩
  have h := runsShared (t := t) (self := self) (f := fun b => encryptBytes (load b)) (aesOf k key) work m (fun w b => by
    rw [hm, hl]
    unfold encryptBytes
    rw [LawfulVec.from_bytes_eq, Rust.bind_ok, encrypt_w t _ _ (encrypt_rkVec (rounds_pos k) _), LawfulVec.view_ofB,
      (cipher_aesOf t hrv hbe k key).1]) hlen hap hoff
  refine ⟨h, fun trace s hr => ?_⟩
  have h' := sharedOnAnyMemory hap hoff h trace s hr
  refine ⟨h', ?_⟩
  rw [← hm]
  apply Vector.ext; intro i hi
  simp only [readMem, Vector.getElem_ofFn]
  exact h'.untouched _ fun c hc hw => hoff c hc _ hw ⟨by omega, by omega⟩
/-- C53 and C67 with the decrypter in memory. -/
theorem C67_shared_decrypter (t : Target) (hrv : t ≠ .riscv32) (hbe : t ≠ .bitslice .big) (k : KeySize) (key : Bytes k.bytes) :
    ∃ d : AesDec t.Block k.rounds, decFromOf t.Block k key = .ok d ∧
    ∀ (n : Nat) (repr : AesDec t.Block k.rounds → Bytes n) (load : Bytes n → AesDec t.Block k.rounds), load (repr d) = d →
    ∀ (self : Nat) (work : List (List Chunk)) (m : Memory), readMem m self n = repr d → (∀ c ∈ work.flatten, c.w.size ≤ c.dst.len) →
      work.flatten.Pairwise Apart → (∀ c ∈ work.flatten, KeepsOff self n c) →
      RunsInParallel (aesInvOf k key) work m (startShared t self n (fun b => decryptBytes (load b)) work m).exec n ∧
      ∀ trace s, WeakRun (startShared t self n (fun b => decryptBytes (load b)) work m) trace s →
        RunsOnAnyMemory (aesInvOf k key) work m trace s n ∧ readMem s.memory self n = repr d := by
  have := t.lawfulPre hrv
  have := t.lawfulDec hrv
  refine ⟨_, decFrom_conc (t := t) k key, fun n repr load hl self work m hm hlen hap hoff => ?_⟩
  have h := runsShared (t := t) (self := self) (f := fun b => decryptBytes (load b)) (aesInvOf k key) work m (fun w b => by
    rw [hm, hl]
    unfold decryptBytes
    rw [LawfulVec.from_bytes_eq, Rust.bind_ok, decrypt_w t _ _ (decrypt_rkVec (rounds_pos k) _), LawfulVec.view_ofB,
      (cipher_aesOf t hrv hbe k key).2]) hlen hap hoff
  refine ⟨h, fun trace s hr => ?_⟩
  have h' := sharedOnAnyMemory hap hoff h trace s hr
  refine ⟨h', ?_⟩
  rw [← hm]
  apply Vector.ext; intro i hi
  simp only [readMem, Vector.getElem_ofFn]
  exact h'.untouched _ fun c hc hw => hoff c hc _ hw ⟨by omega, by omega⟩

/-! ### The hypotheses are met -/

/-- One such representation: the bytes of the round keys one after the other. -/
def keysRepr {t : Target} {nr : Nat} (e : AesEnc t.Block nr) : Bytes (16 * (nr + 1)) :=
  Vector.ofFn fun i => (view (e.round_keys[i.val / 16]'(by omega)))[i.val % 16]'(by omega)
def keysLoad {t : Target} {nr : Nat} (b : Bytes (16 * (nr + 1))) : AesEnc t.Block nr :=
  ⟨Vector.ofFn fun i => ofB (T := t.Block) (Vector.ofFn fun j : Fin 16 => b[16 * i.val + j.val]'(by omega))⟩
theorem keysLoad_repr {t : Target} {nr : Nat} (e : AesEnc t.Block nr) : keysLoad (keysRepr e) = e := by
  obtain ⟨rk⟩ := e
  unfold keysLoad keysRepr
  congr 1
  apply Vector.ext; intro i hi
  rw [Vector.getElem_ofFn]
  conv => rhs; rw [← LawfulVec.ofB_view (T := t.Block) rk[i]]
  congr 1
  apply Vector.ext; intro j hj
  simp only [Vector.getElem_ofFn]
  have e1 : (16 * i + j) / 16 = i := by omega
  have e2 : (16 * i + j) % 16 = j := by omega
  simp only [e1, e2]
/-- With it in memory at address 2000, the work of C53 keeps off it; so in every execution block 6 becomes AES of what it was once
thread 0 has finished. -/
example (t : Target) (hrv : t ≠ .riscv32) (hbe : t ≠ .bitslice .big) (m : Memory) : ∃ (e : AesEnc t.Block 12) (m' : Memory),
    encFromOf t.Block .k192 exKey192 = .ok e ∧ (∀ a, a < 2000 → m' a = m a) ∧ readMem m' 2000 (16 * 13) = keysRepr e ∧
    ∀ trace s r, WeakRun (startShared t 2000 (16 * 13) (fun b => encryptBytes (keysLoad b)) exWork m') trace s → s.threads 0 = .done r →
      s.memory 1096 = (aesOf .k192 exKey192 (readMem m' 1096 16))[0] := by
  obtain ⟨e, he, h⟩ := C67_shared_encrypter t hrv hbe .k192 exKey192
  have hm : readMem (fun a => if h : 2000 ≤ a ∧ a < 2000 + 16 * 13 then (keysRepr (nr := 12) e)[a - 2000]'(by omega) else m a) 2000 (16 * 13) =
      keysRepr (nr := 12) e := by
    apply Vector.ext; intro i hi
    simp only [readMem, Vector.getElem_ofFn]
    rw [dif_pos ⟨by omega, by omega⟩]
    simp only [Nat.add_sub_cancel_left]
  refine ⟨e, fun a => if h : 2000 ≤ a ∧ a < 2000 + 16 * 13 then (keysRepr (nr := 12) e)[a - 2000]'(by omega) else m a, he, fun a ha => ?_, hm, ?_⟩
  · exact dif_neg (by omega)
  · intro trace s r hr h0
    have hr' := (h (16 * 13) keysRepr keysLoad (keysLoad_repr e) 2000 exWork _ hm (by decide) exWork_apart (fun c hc a ha => by
      simp only [exWork, List.flatten_cons, List.flatten_nil, List.append_nil, List.cons_append, List.nil_append, List.mem_cons,
        List.not_mem_nil, or_false] at hc
      rcases hc with rfl | rfl | rfl <;> (simp only [Chunk.writes, Width.size] at ha; omega))).2 trace s hr
    exact (hr'.1.finished 0 r h0).2 ⟨.x1, 1096, ⟨1096, 16⟩⟩ (by simp [exWork]) 1096 (by simp [Chunk.writes, Width.size])
end Aes
