import Verif.Model.Threads
import Verif.Proofs.Store
import Verif.Spec.Threads
/-! Threads on a shared memory: proofs. -/
namespace Aes.Threads
open Rust AesSpec Target Store

/-! ### Threads that keep apart do not notice each other -/

theorem within_step {R S : Nat → Prop} {p : Prog} (h : p.Within R S) (m : Memory) : (p.step m).1.Within R S := by
  cases p with
  | done r => exact h
  | load a k => exact h.2 _
  | store w k => exact h.2
/-- Only `S` changes. -/
theorem step_other {R S : Nat → Prop} {p : Prog} (h : p.Within R S) (m : Memory) (a : Nat) (ha : ¬ S a) : (p.step m).2 a = m a := by
  cases p with
  | done r => rfl
  | load a k => rfl
  | store w k => exact if_neg (fun e : a = w.1 => ha (e ▸ h.1))
/-- A step depends on `R` only. -/
theorem step_same {R S : Nat → Prop} {p : Prog} (h : p.Within R S) {m m' : Memory} (hm : ∀ a, R a ∨ S a → m a = m' a) :
    (p.step m).1 = (p.step m').1 ∧ ∀ a, R a ∨ S a → (p.step m).2 a = (p.step m').2 a := by
  cases p with
  | done r => exact ⟨rfl, hm⟩
  | load a k => exact ⟨congrArg k (hm a (Or.inl h.1)), hm⟩
  | store w k =>
    refine ⟨rfl, fun a ha => ?_⟩
    show (if a = w.1 then w.2 else m a) = if a = w.1 then w.2 else m' a
    rw [hm a ha]

theorem steps_succ (p : Prog) (m : Memory) (n : Nat) : p.steps m (n + 1) = ((p.steps m n).1.step (p.steps m n).2) := by
  induction n generalizing p m with
  | zero => rfl
  | succ n ih =>
    have := ih (p.step m).1 (p.step m).2
    simp only [Prog.steps] at this ⊢
    exact this

theorem exec_snoc (s : System) (l : List Nat) (i : Nat) : s.exec (l ++ [i]) = (s.exec l).step i := by
  simp only [System.exec, List.foldl_append, List.foldl_cons, List.foldl_nil]

theorem within_exec {R S : Nat → Nat → Prop} {s : System} (h : ∀ i, (s.threads i).Within (R i) (S i)) (l : List Nat) :
    ∀ i, ((s.exec l).threads i).Within (R i) (S i) := by
  induction l generalizing s with
  | nil => exact h
  | cons j l ih =>
    refine ih fun i => ?_
    simp only [System.step]
    split
    · next e => subst e; exact within_step (h i) _
    · exact h i

theorem noninterference {R S : Nat → Nat → Prop} {s : System} (h : ∀ i, (s.threads i).Within (R i) (S i))
    (hd : ∀ i j, i ≠ j → ∀ a, S i a → ¬ R j a ∧ ¬ S j a) (l : List Nat) :
    (∀ i, (s.exec l).threads i = ((s.threads i).steps s.memory (l.count i)).1 ∧
      ∀ a, R i a ∨ S i a → (s.exec l).memory a = ((s.threads i).steps s.memory (l.count i)).2 a) ∧
    ∀ a, (∀ i, ¬ S i a) → (s.exec l).memory a = s.memory a := by
  have key : ∀ n, ∀ l : List Nat, l.length = n →
      (∀ i, (s.exec l).threads i = ((s.threads i).steps s.memory (l.count i)).1 ∧
      ∀ a, R i a ∨ S i a → (s.exec l).memory a = ((s.threads i).steps s.memory (l.count i)).2 a) ∧
      ∀ a, (∀ i, ¬ S i a) → (s.exec l).memory a = s.memory a := by
    intro n
    induction n with
    | zero =>
      intro l hl
      cases List.eq_nil_of_length_eq_zero hl
      exact ⟨fun i => ⟨rfl, fun a _ => rfl⟩, fun a _ => rfl⟩
    | succ n ih =>
      intro l hl
      obtain ⟨l, j, rfl⟩ : ∃ l' j, l = l' ++ [j] := ⟨l.dropLast, l.getLast (by intro e; subst e; cases hl),
        (List.dropLast_concat_getLast _).symm⟩
      obtain ⟨ih1, ih2⟩ := ih l (by simpa using hl)
      have hw := within_exec h l
      rw [exec_snoc]
      refine ⟨fun i => ?_, fun a ha => ?_⟩
      · by_cases e : i = j
        · subst e
          have hc : (l ++ [i]).count i = l.count i + 1 := by simp
          have hs := step_same (hw i) (ih1 i).2
          rw [hc, steps_succ, ← (ih1 i).1]
          refine ⟨?_, fun a ha => hs.2 a ha⟩
          simp only [System.step, if_true]
          exact hs.1
        · have hc : (l ++ [j]).count i = l.count i := by
            rw [List.count_append, List.count_singleton]
            rw [if_neg (by simpa using fun h => e h.symm)]; rfl
          rw [hc]
          refine ⟨?_, fun a ha => ?_⟩
          · simp only [System.step, if_neg e]; exact (ih1 i).1
          · rw [← (ih1 i).2 a ha]
            refine step_other (hw j) _ a fun hj => ?_
            have := hd j i (Ne.symm e) a hj
            rcases ha with ha | ha
            · exact this.1 ha
            · exact this.2 ha
      · rw [← ih2 a ha]
        exact step_other (hw j) _ a (ha j)
  exact key _ l rfl

/-! ### A thread alone -/

/-- What a thread running alone writes until it is done. -/
def Prog.trace : Prog → Memory → List Write
  | .done _, _ => []
  | .load a k, m => (k (m a)).trace m
  | .store w k, m => w :: k.trace (apply m w)
/-- How it ends. -/
def Prog.result : Prog → Memory → M Unit
  | .done r, _ => r
  | .load a k, m => (k (m a)).result m
  | .store w k, m => k.result (apply m w)
/-- After how many steps. -/
def Prog.cost : Prog → Memory → Nat
  | .done _, _ => 0
  | .load a k, m => (k (m a)).cost m + 1
  | .store w k, m => k.cost (apply m w) + 1

/-- At any time it has made some of its writes. -/
theorem steps_memory (p : Prog) (m : Memory) (n : Nat) : ∃ k, (p.steps m n).2 = applyAll m ((p.trace m).take k) := by
  induction n generalizing p m with
  | zero => exact ⟨0, rfl⟩
  | succ n ih =>
    cases p with
    | done r =>
      obtain ⟨k, hk⟩ := ih (.done r) m
      exact ⟨k, hk⟩
    | load a k =>
      obtain ⟨j, hj⟩ := ih (k (m a)) m
      exact ⟨j, hj⟩
    | store w k =>
      obtain ⟨j, hj⟩ := ih k (apply m w)
      exact ⟨j + 1, hj⟩
/-- In the end it has made all of them. -/
theorem steps_done (p : Prog) (m : Memory) (n : Nat) (h : p.cost m ≤ n) :
    p.steps m n = (.done (p.result m), applyAll m (p.trace m)) := by
  induction n generalizing p m with
  | zero =>
    cases p with
    | done r => rfl
    | load a k => simp [Prog.cost] at h
    | store w k => simp [Prog.cost] at h
  | succ n ih =>
    cases p with
    | done r => exact ih (.done r) m (Nat.zero_le _)
    | load a k => exact ih (k (m a)) m (by simp only [Prog.cost] at h; omega)
    | store w k => exact ih k (apply m w) (by simp only [Prog.cost] at h; omega)
/-- And not before. -/
theorem steps_not_done (p : Prog) (m : Memory) (n : Nat) (r : M Unit) (h : (p.steps m n).1 = .done r) : p.cost m ≤ n := by
  induction n generalizing p m with
  | zero => simp only [Prog.steps] at h; subst h; exact Nat.le_refl _
  | succ n ih =>
    cases p with
    | done r => exact Nat.zero_le _
    | load a k => have := ih (k (m a)) m h; simp only [Prog.cost]; omega
    | store w k => have := ih k (apply m w) h; simp only [Prog.cost]; omega

theorem readMem_succ (m : Memory) (p n : Nat) : readMem m p (n + 1) = (readMem m p n).push (m (p + n)) := by
  apply Vector.ext; intro i hi
  simp only [readMem, Vector.getElem_ofFn, Vector.getElem_push]
  split
  · rfl
  · rw [show i = n by omega]

theorem readN_run (m : Memory) (p n : Nat) (k : Bytes n → Prog) : (readN p n k).trace m = (k (readMem m p n)).trace m ∧
    (readN p n k).result m = (k (readMem m p n)).result m ∧ (readN p n k).cost m = (k (readMem m p n)).cost m + n := by
  induction n with
  | zero => exact ⟨rfl, rfl, rfl⟩
  | succ n ih =>
    simp only [readN]
    obtain ⟨h1, h2, h3⟩ := ih fun v => .load (p + n) fun b => k (v.push b)
    rw [h1, h2, h3, readMem_succ]
    refine ⟨rfl, rfl, ?_⟩
    simp only [Prog.cost]; omega
theorem readN_within {R S : Nat → Prop} (p n : Nat) (k : Bytes n → Prog) (h : ∀ i, i < n → R (p + i)) (hk : ∀ v, (k v).Within R S) :
    (readN p n k).Within R S := by
  induction n with
  | zero => exact hk _
  | succ n ih =>
    refine ih _ (fun i hi => h i (by omega)) fun v => ⟨h n (by omega), fun b => hk _⟩

theorem writes_run (l : List Write) (k : Prog) (m : Memory) : (l.foldr Prog.store k).trace m = l ++ k.trace (applyAll m l) ∧
    (l.foldr Prog.store k).result m = k.result (applyAll m l) ∧ (l.foldr Prog.store k).cost m = k.cost (applyAll m l) + l.length := by
  induction l generalizing m with
  | nil => exact ⟨rfl, rfl, rfl⟩
  | cons w l ih =>
    obtain ⟨h1, h2, h3⟩ := ih (apply m w)
    refine ⟨?_, h2, ?_⟩
    · simp only [List.foldr_cons, Prog.trace, h1, List.cons_append]; rfl
    · simp only [List.foldr_cons, Prog.cost, h3, List.length_cons]; rfl
theorem writes_within {R S : Nat → Prop} (l : List Write) (k : Prog) (h : ∀ w ∈ l, S w.1) (hk : k.Within R S) :
    (l.foldr Prog.store k).Within R S := by
  induction l with
  | nil => exact hk
  | cons w l ih => exact ⟨h w List.mem_cons_self, ih fun v hv => h v (List.mem_cons_of_mem _ hv)⟩

/-! ### Workers -/

variable (t : Target)

theorem store_ok (w : Width) (x : t.Vec w) (s : Slice) (h : w.size ≤ s.len) :
    storeVec t w x s = ⟨.ok (), writesAt s.ptr (view (T := t.Vec w) x).toList⟩ := by
  cases w
  · exact LawfulStore.ok (T := t.Block) x s h
  · exact LawfulStore.ok (T := t.X2) x s h
  · exact LawfulStore.ok (T := t.X4) x s h
theorem store_short (w : Width) (x : t.Vec w) (s : Slice) (h : s.len < w.size) : storeVec t w x s = ⟨.error .panic, []⟩ := by
  cases w
  · exact LawfulStore.short (T := t.Block) x s h
  · exact LawfulStore.short (T := t.X2) x s h
  · exact LawfulStore.short (T := t.X4) x s h

variable {t}
variable {f : (w : Width) → Vector U8 w.size → M (t.Vec w)}

theorem worker_within (cs : List Chunk) :
    (worker t f cs).Within (fun a => ∃ c ∈ cs, c.reads a) (fun a => ∃ c ∈ cs, c.writes a) := by
  have weaken : ∀ {R S R' S' : Nat → Prop} (p : Prog), (∀ a, R a → R' a) → (∀ a, S a → S' a) → p.Within R S → p.Within R' S' := by
    intro R S R' S' p hR hS
    induction p with
    | done r => exact id
    | load a k ih => exact fun h => ⟨hR _ h.1, fun b => ih b (h.2 b)⟩
    | store w k ih => exact fun h => ⟨hS _ h.1, ih h.2⟩
  induction cs with
  | nil => exact True.intro
  | cons c cs ih =>
    refine readN_within _ _ _ (fun i hi => ⟨c, List.mem_cons_self, by unfold Chunk.reads; omega⟩) fun v => ?_
    cases f c.w v with
    | error e => exact True.intro
    | ok y =>
      have hR : ∀ a, (∃ d ∈ cs, d.reads a) → ∃ d ∈ c :: cs, d.reads a := fun a ⟨d, hd, h⟩ => ⟨d, List.mem_cons_of_mem c hd, h⟩
      have hS : ∀ a, (∃ d ∈ cs, d.writes a) → ∃ d ∈ c :: cs, d.writes a := fun a ⟨d, hd, h⟩ => ⟨d, List.mem_cons_of_mem c hd, h⟩
      have ih' := weaken _ hR hS ih
      refine writes_within _ _ (fun w hw => ?_) ?_
      · by_cases h : c.w.size ≤ c.dst.len
        · rw [store_ok t c.w y c.dst h] at hw
          obtain ⟨h1, h2, -⟩ := mem_writesAt hw
          exact ⟨c, List.mem_cons_self, h1, by simpa using h2⟩
        · rw [store_short t c.w y c.dst (by omega)] at hw; cases hw
      · cases (storeVec t c.w y c.dst).result with
        | ok u => exact ih'
        | error e => exact True.intro

/-- The writes of a worker: for each chunk, the bytes that `g` makes of what was there at the start. -/
theorem worker_run (g : (w : Width) → Bytes w.size → Bytes w.size) (hf : ∀ w b, f w b = .ok (ofB (T := t.Vec w) (g w b)))
    (m0 : Memory) (cs : List Chunk) (hlen : ∀ c ∈ cs, c.w.size ≤ c.dst.len) (hap : cs.Pairwise Apart) (m : Memory)
    (hm : ∀ c ∈ cs, ∀ a, c.reads a → m a = m0 a) :
    (worker t f cs).trace m = cs.flatMap (fun c => writesAt c.dst.ptr (g c.w (readMem m0 c.src c.w.size)).toList) ∧
    (worker t f cs).result m = .ok () ∧ (worker t f cs).cost m = (cs.map fun c => 2 * c.w.size).sum := by
  induction cs generalizing m with
  | nil => exact ⟨rfl, rfl, rfl⟩
  | cons c cs ih =>
    have hr : readMem m c.src c.w.size = readMem m0 c.src c.w.size := by
      apply Vector.ext; intro i hi
      simp only [readMem, Vector.getElem_ofFn]
      exact hm c List.mem_cons_self _ ⟨by omega, by omega⟩
    obtain ⟨h1, h2, h3⟩ := readN_run m c.src c.w.size fun b => match f c.w b with
      | .error e => .done (.error e)
      | .ok y => perform (storeVec t c.w y c.dst) (worker t f cs)
    rw [hr] at h1 h2 h3
    simp only [hf, store_ok t c.w _ c.dst (hlen c List.mem_cons_self), perform, LawfulVec.view_ofB] at h1 h2 h3
    simp only [worker, hf, store_ok t c.w _ c.dst (hlen c List.mem_cons_self), perform, LawfulVec.view_ofB]
    rw [h1, h2, h3]
    obtain ⟨w1, w2, w3⟩ := writes_run (writesAt c.dst.ptr (g c.w (readMem m0 c.src c.w.size)).toList) (worker t f cs) m
    rw [w1, w2, w3]
    obtain ⟨i1, i2, i3⟩ := ih (fun d hd => hlen d (List.mem_cons_of_mem _ hd)) (List.pairwise_cons.mp hap).2
      (applyAll m (writesAt c.dst.ptr (g c.w (readMem m0 c.src c.w.size)).toList)) fun d hd a ha => by
        rw [applyAll_not_mem, hm d (List.mem_cons_of_mem _ hd) a ha]
        intro w hw e
        obtain ⟨x1, x2, -⟩ := mem_writesAt hw
        exact (((List.pairwise_cons.mp hap).1 d hd a).1 ⟨by omega, by simp at x2; omega⟩).1 ha
    rw [i1, i2, i3]
    refine ⟨rfl, rfl, ?_⟩
    rw [length_writesAt, Vector.length_toList, List.map_cons, List.sum_cons]; omega

/-- The value of a byte after some writes: the old one, or a written one. -/
theorem applyAll_cases (m : Memory) (l : List Write) (a : Nat) : applyAll m l a = m a ∨ ∃ w ∈ l, w.1 = a ∧ applyAll m l a = w.2 := by
  induction l generalizing m with
  | nil => exact Or.inl rfl
  | cons w l ih =>
    rcases ih (apply m w) with h | ⟨v, hv, h1, h2⟩
    · show applyAll (apply m w) l a = m a ∨ _
      rw [h]
      by_cases e : a = w.1
      · exact Or.inr ⟨w, List.mem_cons_self, e.symm, by show applyAll (apply m w) l a = w.2; rw [h]; exact if_pos e⟩
      · exact Or.inl (if_neg e)
    · exact Or.inr ⟨v, List.mem_cons_of_mem _ hv, h1, h2⟩
theorem applyAll_mem (m : Memory) (l : List Write) (a : Nat) (b : U8) (h : ∃ w ∈ l, w.1 = a) (hb : ∀ w ∈ l, w.1 = a → w.2 = b) :
    applyAll m l a = b := by
  rcases applyAll_cases m l a with h1 | ⟨w, hw, h1, h2⟩
  · induction l generalizing m with
    | nil => obtain ⟨w, hw, -⟩ := h; cases hw
    | cons w l ih =>
      by_cases hl : ∃ v ∈ l, v.1 = a
      · show applyAll (apply m w) l a = b
        rcases applyAll_cases (apply m w) l a with h3 | ⟨v, hv, h3, h4⟩
        · exact ih (apply m w) hl (fun v hv => hb v (List.mem_cons_of_mem _ hv)) h3
        · rw [h4]; exact hb v (List.mem_cons_of_mem _ hv) h3
      · obtain ⟨v, hv, he⟩ := h
        rcases List.mem_cons.mp hv with rfl | hv
        · show applyAll (apply m v) l a = b
          rw [applyAll_not_mem _ _ _ fun x hx e => hl ⟨x, hx, e⟩]
          rw [← hb v List.mem_cons_self he]
          exact if_pos he.symm
        · exact absurd ⟨v, hv, he⟩ hl
  · rw [h2]; exact hb w hw h1

theorem exists_writesAt (p : Nat) (l : List U8) (i : Nat) (h : i < l.length) : ∃ w ∈ writesAt p l, w.1 = p + i := by
  induction l generalizing p i with
  | nil => cases h
  | cons b l ih =>
    cases i with
    | zero => exact ⟨_, List.mem_cons_self, rfl⟩
    | succ i =>
      obtain ⟨w, hw, e⟩ := ih (p + 1) i (by simpa using h)
      exact ⟨w, List.mem_cons_of_mem _ hw, by rw [e]; omega⟩

end Aes.Threads
