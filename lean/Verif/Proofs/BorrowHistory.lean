import Verif.Proofs.BorrowKeys
/-! Using a pointer again after it was used (Spec/Borrows.lean): proofs. -/
namespace Aes.Borrow
open Rust

theorem split_pass {k : Access} {t : Tag} {ab rest : Stack} (h : ∀ i ∈ ab, ¬ (i.tag = t ∧ i.perm.allows k = true)) :
    split k t (ab ++ rest) = (split k t rest).map fun p => (ab ++ p.1, p.2.1, p.2.2) := by
  induction ab with
  | nil => simp
  | cons i ab ih =>
    rw [List.cons_append, split, if_neg (h i List.mem_cons_self), ih fun j hj => h j (List.mem_cons_of_mem _ hj), Option.map_map]
    rfl
def sig (i : Item) : Bool × Option CallId := (isRW i, i.protector)
theorem sig_disable (i : Item) : sig (disable i) = sig i := by
  unfold disable; split
  · next h => simp [sig, isRW, h]
  · rfl
theorem any_guarded (A : List CallId) (l : Stack) :
    l.any (guarded A) = (l.map sig).any fun p => match p.2 with | some c => A.contains c | none => false := by
  rw [List.any_map]; rfl
theorem popped_any {A : List CallId} {g : Item} {l l' : Stack} (h : l'.map sig = l.map sig) :
    (popped g l').any (guarded A) = (popped g l).any (guarded A) := by
  unfold popped
  split
  · rw [any_guarded, any_guarded]
    have (l : Stack) : (l.reverse.dropWhile isRW).reverse.map sig = ((l.map sig).reverse.dropWhile Prod.fst).reverse := by
      rw [List.map_reverse, ← List.map_reverse (l := l), List.dropWhile_map]; rfl
    rw [this, this, h]
  · rw [any_guarded, any_guarded, h]
theorem allows_write {p : Perm} (h : p.allows .write = true) : p.allows .read = true := by cases p <;> first | rfl | cases h

/-- A pointer that could be written through before it was read through still can be. -/
theorem access_write_read {A : List CallId} {t : Tag} {s s' : Stack} (h : (access A .write t s).isSome) (hr : access A .read t s = some s') :
    (access A .write t s').isSome := by
  unfold access at hr
  cases hs : split .read t s with
  | none => rw [hs] at hr; cases hr
  | some p =>
    obtain ⟨ab, g, be⟩ := p
    rw [hs] at hr
    obtain ⟨rfl, ht, hg, hn⟩ := split_eq hs
    simp only at hr
    split at hr
    · cases hr
    cases hr
    have h1 : ∀ i ∈ ab, ¬ (i.tag = t ∧ i.perm.allows .write = true) := fun i hi he => hn i hi ⟨he.1, allows_write he.2⟩
    have h2 : ∀ i ∈ ab.map disable, ¬ (i.tag = t ∧ i.perm.allows .write = true) := fun i hi he => by
      obtain ⟨j, hj, rfl⟩ := List.mem_map.mp hi
      refine h1 j hj ⟨tag_disable j ▸ he.1, ?_⟩
      have := he.2
      unfold disable at this
      split at this
      · cases this
      · exact this
    obtain ⟨y, hy⟩ := Option.isSome_iff_exists.mp h
    unfold access at hy ⊢
    rw [split_pass h1] at hy
    rw [split_pass h2]
    cases hw : split .write t (g :: be) with
    | none => rw [hw] at hy; cases hy
    | some q =>
      obtain ⟨m, wg, b⟩ := q
      rw [hw] at hy
      simp only [Option.map_some] at hy ⊢
      split at hy
      · cases hy
      · next hc =>
        rw [if_neg]
        · rfl
        · rw [popped_any (l := ab ++ m)]
          · exact hc
          · rw [List.map_append, List.map_append, List.map_map]
            congr 1
            exact List.map_congr_left fun i _ => sig_disable i
theorem mem_dropWhile {α : Type} {p : α → Bool} {l : List α} {x : α} (h : x ∈ l) (hp : p x = false) : x ∈ l.dropWhile p := by
  induction l with
  | nil => cases h
  | cons y l ih =>
    rw [List.dropWhile_cons]
    split
    · next hy =>
      rcases List.mem_cons.mp h with rfl | h
      · rw [hp] at hy; cases hy
      · exact ih h
    · exact h
/-- What can be written can be read. -/
theorem access_read_of_write {A : List CallId} {t : Tag} {s : Stack} (h : (access A .write t s).isSome) : (access A .read t s).isSome := by
  obtain ⟨y, hy⟩ := Option.isSome_iff_exists.mp h
  obtain ⟨wab, wg, wbe, hw, hc, -⟩ := access_write_some hy
  obtain ⟨rfl, hwt, hwg, hwn⟩ := split_eq hw
  unfold access
  cases hs : split .read t (wab ++ wg :: wbe) with
  | none =>
    exfalso
    have : ∀ s : Stack, split .read t s = none → ∀ i ∈ s, ¬ (i.tag = t ∧ i.perm.allows .read = true) := by
      intro s
      induction s with
      | nil => intro _ i hi; cases hi
      | cons j s ih =>
        intro h i hi
        rw [split] at h
        split at h
        · cases h
        · next hj =>
          rcases List.mem_cons.mp hi with rfl | hi
          · exact hj
          · exact ih (by simpa using h) i hi
    exact this _ hs wg (by simp) ⟨hwt, allows_write hwg⟩
  | some q =>
    obtain ⟨ab, g, be⟩ := q
    obtain ⟨he, ht, hg, hn⟩ := split_eq hs
    simp only
    rw [if_neg]
    · rfl
    · rw [List.any_eq_true]
      rintro ⟨i, hi, hu⟩
      simp only [Bool.and_eq_true, decide_eq_true_eq] at hu
      have hiw : i ∈ wab := by
        rcases List.append_eq_append_iff.mp he with ⟨m, h1, h2⟩ | ⟨m, h1, h2⟩
        · -- `ab = wab ++ m`
          rw [h1] at hi
          rcases List.mem_append.mp hi with hi | hi
          · exact hi
          · exfalso
            cases m with
            | nil => cases hi
            | cons x m =>
              rw [List.cons_append] at h2
              obtain ⟨rfl, -⟩ := List.cons.inj h2
              exact hn wg (by rw [h1]; simp) ⟨hwt, allows_write hwg⟩
        · rw [h1]; exact List.mem_append_left _ hi
      have : i ∈ popped wg wab := by
        unfold popped
        split
        · refine List.mem_reverse.mpr (mem_dropWhile (List.mem_reverse.mpr hiw) ?_)
          simp [isRW, hu.1]
        · exact hiw
      rw [List.any_eq_false] at hc
      exact hc i this hu.2
/-- What was read can be read again. -/
theorem access_read_read {A : List CallId} {t : Tag} {s s' : Stack} (hr : access A .read t s = some s') : (access A .read t s').isSome := by
  unfold access at hr
  cases hs : split .read t s with
  | none => rw [hs] at hr; cases hr
  | some p =>
    obtain ⟨ab, g, be⟩ := p
    rw [hs] at hr
    obtain ⟨rfl, ht, hg, hn⟩ := split_eq hs
    simp only at hr
    split at hr
    · cases hr
    cases hr
    have h2 : ∀ i ∈ ab.map disable, ¬ (i.tag = t ∧ i.perm.allows .read = true) := fun i hi he => by
      obtain ⟨j, hj, rfl⟩ := List.mem_map.mp hi
      refine hn j hj ⟨tag_disable j ▸ he.1, ?_⟩
      have := he.2
      unfold disable at this
      split at this
      · cases this
      · exact this
    unfold access
    rw [split_pass h2, split, if_pos ⟨ht, hg⟩]
    simp only [Option.map_some]
    rw [if_neg]
    · rfl
    · rw [List.any_eq_true]
      rintro ⟨i, hi, hu⟩
      rw [List.append_nil] at hi
      obtain ⟨j, hj, rfl⟩ := List.mem_map.mp hi
      simp only [Bool.and_eq_true, decide_eq_true_eq] at hu
      have := hu.1
      unfold disable at this
      split at this
      · cases this
      · next h => exact h this
end Aes.Borrow
