import Verif.Model.Fmt
import Verif.Spec.Text
import Verif.Proofs.Lawful
/-! What a formatting action writes, for every writer. -/
namespace Aes.Fmt
open Rust TextSpec

/-- How a writer treats text: it transforms it (`tr`, depending on a state `τ`), and may stop in the middle. -/
structure Sem {σ : Type} (w : Writer σ) (τ : Type) where
  out : σ → List Char
  st : σ → τ
  tr : τ → List Char → List Char
  nx : τ → List Char → τ
  tr_nil : ∀ t, tr t [] = []
  nx_nil : ∀ t, nx t [] = t
  tr_append : ∀ t a b, tr t (a ++ b) = tr t a ++ tr (nx t a) b
  nx_append : ∀ t a b, nx t (a ++ b) = nx (nx t a) b
  law : ∀ c s, ∃ c', c' <+: tr (st s) c ∧ out (w.write_str c s).2 = out s ++ c' ∧
    ((w.write_str c s).1 = true → c' = tr (st s) c ∧ st (w.write_str c s).2 = nx (st s) c)

/-- The writer never fails. -/
def Infallible {σ : Type} (w : Writer σ) : Prop := ∀ c s, (w.write_str c s).1 = true

/-- The outcome `(ok, s')` of writing `t` in state `s`: all of it, or a prefix and an error. -/
def Wrote {σ τ : Type} {w : Writer σ} (S : Sem w τ) (s : σ) (t : List Char) (ok : Bool) (s' : σ) : Prop :=
  ∃ c', c' <+: S.tr (S.st s) t ∧ S.out s' = S.out s ++ c' ∧
    (ok = true → c' = S.tr (S.st s) t ∧ S.st s' = S.nx (S.st s) t)

/-- The action writes `t` and nothing else, to any writer. -/
def Emits (a : Action) (t : List Char) : Prop :=
  ∀ ⦃σ τ : Type⦄ (w : Writer σ) (S : Sem w τ) (s : σ), ∃ ok s', a.run w s = .ok (ok, s') ∧ Wrote S s t ok s' ∧
    (Infallible w → ok = true)

theorem emits_done : Emits done [] := fun _ _ _ S s =>
  ⟨true, s, rfl, ⟨[], by simp [S.tr_nil], by simp, fun _ => ⟨(S.tr_nil _).symm, (S.nx_nil _).symm⟩⟩, fun _ => rfl⟩
theorem emits_write (t : List Char) : Emits (write t) t := fun _ _ _ S s =>
  ⟨_, _, rfl, S.law t s, fun h => h t s⟩
theorem emits_andThen {a b : Action} {t u : List Char} (ha : Emits a t) (hb : Emits b u) : Emits (andThen a b) (t ++ u) := by
  intro σ τ w S s
  obtain ⟨ok, s1, h1, ⟨c1, hp1, ho1, hk1⟩, hi1⟩ := ha w S s
  cases ok with
  | false =>
    refine ⟨false, s1, by simp only [andThen, h1], ⟨c1, ?_, ho1, fun h => by cases h⟩, fun h => hi1 h⟩
    rw [S.tr_append]
    exact hp1.trans (List.prefix_append _ _)
  | true =>
    obtain ⟨e1, n1⟩ := hk1 rfl
    obtain ⟨ok, s2, h2, ⟨c2, hp2, ho2, hk2⟩, hi2⟩ := hb w S s1
    refine ⟨ok, s2, by simp only [andThen, h1, h2], ⟨c1 ++ c2, ?_, ?_, fun h => ?_⟩, hi2⟩
    · rw [S.tr_append, e1, ← n1]
      exact (List.prefix_append_right_inj _).mpr hp2
    · rw [ho2, ho1, List.append_assoc]
    · obtain ⟨e2, n2⟩ := hk2 h
      refine ⟨?_, ?_⟩
      · rw [S.tr_append, e1, e2, ← n1]
      · rw [S.nx_append, n2, n1]
theorem emits_withM {α : Type} {m : M α} {x : α} (h : m = .ok x) {f : α → Action} {t : List Char} (hf : Emits (f x) t) :
    Emits (withM m f) t := by
  intro σ τ w S s
  simp only [withM, h]
  exact hf w S s
theorem emits_forEach {α : Type u} (l : List α) (f : α → Action) (g : α → List Char) (h : ∀ x ∈ l, Emits (f x) (g x)) :
    Emits (forEach l f) (l.flatMap g) := by
  induction l with
  | nil => exact emits_done
  | cons x l ih =>
    rw [List.flatMap_cons]
    exact emits_andThen (h x (by simp)) (ih fun y hy => h y (by simp [hy]))
theorem emits_cast {a : Action} {t u : List Char} (h : Emits a t) (e : t = u) : Emits a u := e ▸ h
theorem emits_ite {c : Prop} [Decidable c] {a b : Action} {t u : List Char} (ha : c → Emits a t) (hb : ¬ c → Emits b u) :
    Emits (if c then a else b) (if c then t else u) := by
  by_cases h : c
  · rw [if_pos h, if_pos h]; exact ha h
  · rw [if_neg h, if_neg h]; exact hb h
theorem emits_writeN (c : Char) (n : Nat) : Emits (writeN c n) (List.replicate n c) := by
  refine emits_cast (emits_forEach _ _ (fun _ => [c]) (fun _ _ => emits_write _)) ?_
  induction n with
  | zero => rfl
  | succ n ih => rw [List.replicate_succ, List.flatMap_cons, ih, List.replicate_succ]; rfl

/-! ### PadAdapter -/

/-- Indentation, character by character. -/
def indent : Bool → List Char → List Char
  | _, [] => []
  | nl, c :: cs => (if nl then [' ', ' ', ' ', ' '] else []) ++ c :: indent (c == '\n') cs
/-- At the start of a line after the text? -/
def nlAfter : Bool → List Char → Bool
  | nl, [] => nl
  | _, c :: cs => nlAfter (c == '\n') cs

theorem indent_append (nl : Bool) (a b : List Char) : indent nl (a ++ b) = indent nl a ++ indent (nlAfter nl a) b := by
  induction a generalizing nl with
  | nil => rfl
  | cons c a ih => simp only [List.cons_append, indent, nlAfter, ih, List.append_assoc]
theorem nlAfter_append (nl : Bool) (a b : List Char) : nlAfter nl (a ++ b) = nlAfter (nlAfter nl a) b := by
  induction a generalizing nl with
  | nil => rfl
  | cons c a ih => simp only [List.cons_append, nlAfter, ih]

/-- A piece of `split_inclusive`: not empty, newline at the end at most. -/
def IsLine (p : List Char) : Prop := p ≠ [] ∧ ∀ c ∈ p.dropLast, c ≠ '\n'

theorem splitLines_isLine (t : List Char) : ∀ p ∈ splitLines t, IsLine p := by
  induction t with
  | nil => intro p hp; cases hp
  | cons c cs ih =>
    intro p hp
    unfold splitLines at hp
    split at hp
    · rcases List.mem_cons.mp hp with h | h
      · subst h; exact ⟨by simp, by simp⟩
      · exact ih p h
    · next hc =>
      split at hp
      · rw [List.mem_singleton] at hp; subst hp; exact ⟨by simp, by simp⟩
      · next l ls hl =>
        rcases List.mem_cons.mp hp with h | h
        · subst h
          have hl' := ih l (by rw [hl]; simp)
          refine ⟨by simp, fun x hx => ?_⟩
          rw [List.dropLast_cons_of_ne_nil hl'.1] at hx
          rcases List.mem_cons.mp hx with h | h
          · rw [h]; exact hc
          · exact hl'.2 x h
        · exact ih p (by rw [hl]; simp [h])
theorem splitLines_flatten (t : List Char) : (splitLines t).flatten = t := by
  induction t with
  | nil => rfl
  | cons c cs ih =>
    unfold splitLines
    split
    · simp [ih]
    · split
      · next h => rw [h] at ih; simp at ih; simp [← ih]
      · next l ls h => rw [h] at ih; rw [← ih]; simp
theorem indent_false_line (p : List Char) (h : IsLine p) : indent false p = p ∧ nlAfter false p = decide (p.getLast? = some '\n') := by
  obtain ⟨hne, hd⟩ := h
  induction p with
  | nil => exact absurd rfl hne
  | cons c cs ih =>
    cases cs with
    | nil => refine ⟨rfl, ?_⟩; simp only [nlAfter, List.getLast?_singleton, Option.some.injEq]; exact rfl
    | cons d ds =>
      have hc : c ≠ '\n' := hd c (by simp)
      have e : (c == '\n') = false := by simpa using hc
      obtain ⟨h1, h2⟩ := ih (by simp) (fun x hx => hd x (by rw [List.dropLast_cons_of_ne_nil (by simp)]; simp [hx]))
      rw [indent, e, h1]
      refine ⟨by simp, ?_⟩
      rw [nlAfter, e, h2, List.getLast?_cons_cons]
theorem indent_line (nl : Bool) (p : List Char) (h : IsLine p) :
    indent nl p = (if nl then [' ', ' ', ' ', ' '] else []) ++ p ∧ nlAfter nl p = decide (p.getLast? = some '\n') := by
  obtain ⟨h1, h2⟩ := indent_false_line p h
  cases p with
  | nil => exact absurd rfl h.1
  | cons c cs =>
    refine ⟨?_, by simpa only [nlAfter] using h2⟩
    simp only [indent] at h1 ⊢
    simp only [Bool.false_eq_true, if_false, List.nil_append, List.cons.injEq, true_and] at h1
    rw [h1]

/-- `PadAdapter` transforms by indenting. -/
def padSem {σ τ : Type} {w : Writer σ} (S : Sem w τ) : Sem (padAdapter w) (τ × Bool) where
  out s := S.out s.1
  st s := (S.st s.1, s.2)
  tr t c := S.tr t.1 (indent t.2 c)
  nx t c := (S.nx t.1 (indent t.2 c), nlAfter t.2 c)
  tr_nil t := S.tr_nil _
  nx_nil t := by simp only [indent, nlAfter, S.nx_nil]
  tr_append t a b := by simp only [indent_append, S.tr_append]
  nx_append t a b := by simp only [indent_append, S.nx_append, nlAfter_append]
  law c s := by
    have piece : ∀ (p : List Char) (s : σ × Bool), IsLine p → ∃ c', c' <+: S.tr (S.st s.1) (indent s.2 p) ∧
        S.out (padPiece w p s).2.1 = S.out s.1 ++ c' ∧
        ((padPiece w p s).1 = true → c' = S.tr (S.st s.1) (indent s.2 p) ∧
          S.st (padPiece w p s).2.1 = S.nx (S.st s.1) (indent s.2 p) ∧ (padPiece w p s).2.2 = nlAfter s.2 p) := by
      intro p s hp
      obtain ⟨e1, e2⟩ := indent_line s.2 p hp
      rw [e1, e2]
      cases hs : s.2 with
      | false =>
        simp only [padPiece, hs, Bool.false_eq_true, if_false, List.nil_append]
        obtain ⟨c', h1, h2, h3⟩ := S.law p s.1
        exact ⟨c', h1, h2, fun h => ⟨(h3 h).1, (h3 h).2, trivial⟩⟩
      | true =>
        simp only [padPiece, hs, if_true]
        obtain ⟨c1, h1, h2, h3⟩ := S.law [' ', ' ', ' ', ' '] s.1
        revert h2 h3
        generalize w.write_str [' ', ' ', ' ', ' '] s.1 = r
        obtain ⟨ok, s1⟩ := r
        intro h2 h3
        cases ok with
        | false =>
          refine ⟨c1, ?_, h2, fun h => by cases h⟩
          rw [S.tr_append]
          exact h1.trans (List.prefix_append _ _)
        | true =>
          obtain ⟨k1, k2⟩ := h3 rfl
          obtain ⟨c2, g1, g2, g3⟩ := S.law p s1
          simp only at h2 k2
          refine ⟨c1 ++ c2, ?_, ?_, fun h => ?_⟩
          · rw [S.tr_append, k1, ← k2]; exact (List.prefix_append_right_inj _).mpr g1
          · simp only [g2, h2, List.append_assoc]
          · obtain ⟨q1, q2⟩ := g3 h
            refine ⟨by rw [S.tr_append, k1, q1, ← k2], ?_, rfl⟩
            rw [S.nx_append, ← k2, ← q2]
    have pieces : ∀ (ps : List (List Char)) (s : σ × Bool), (∀ p ∈ ps, IsLine p) →
        ∃ c', c' <+: S.tr (S.st s.1) (indent s.2 ps.flatten) ∧ S.out (padPieces w ps s).2.1 = S.out s.1 ++ c' ∧
        ((padPieces w ps s).1 = true → c' = S.tr (S.st s.1) (indent s.2 ps.flatten) ∧
          S.st (padPieces w ps s).2.1 = S.nx (S.st s.1) (indent s.2 ps.flatten) ∧
          (padPieces w ps s).2.2 = nlAfter s.2 ps.flatten) := by
      intro ps
      induction ps with
      | nil =>
        intro s _
        exact ⟨[], by simp, by simp [padPieces], fun _ => ⟨(S.tr_nil _).symm, (S.nx_nil _).symm, rfl⟩⟩
      | cons p ps ih =>
        intro s hp
        obtain ⟨c1, h1, h2, h3⟩ := piece p s (hp p (by simp))
        simp only [padPieces, List.flatten_cons, indent_append, nlAfter_append, S.tr_append, S.nx_append]
        revert h2 h3
        generalize padPiece w p s = r
        obtain ⟨ok, s1⟩ := r
        intro h2 h3
        cases ok with
        | false => exact ⟨c1, h1.trans (List.prefix_append _ _), h2, fun h => by cases h⟩
        | true =>
          obtain ⟨k1, k2, k3⟩ := h3 rfl
          simp only at h2 k2 k3
          obtain ⟨c2, g1, g2, g3⟩ := ih s1 (fun q hq => hp q (by simp [hq]))
          rw [k2, k3] at g1 g3
          refine ⟨c1 ++ c2, ?_, ?_, fun h => ?_⟩
          · rw [k1]; exact (List.prefix_append_right_inj _).mpr g1
          · simp only [g2, h2, List.append_assoc]
          · obtain ⟨q1, q2, q3⟩ := g3 h
            exact ⟨by rw [k1, q1], q2, q3⟩
    obtain ⟨c', h1, h2, h3⟩ := pieces (splitLines c) s (splitLines_isLine c)
    rw [splitLines_flatten] at h1 h3
    refine ⟨c', h1, h2, fun h => ⟨(h3 h).1, ?_⟩⟩
    rw [← (h3 h).2.2, ← (h3 h).2.1]; rfl

theorem infallible_pad {σ : Type} {w : Writer σ} (h : Infallible w) : Infallible (padAdapter w) := by
  have hp : ∀ p s, (padPiece w p s).1 = true := by
    intro p s
    have h1 := h [' ', ' ', ' ', ' '] s.1
    simp only [padPiece]
    split
    · revert h1
      generalize w.write_str [' ', ' ', ' ', ' '] s.1 = r
      obtain ⟨ok, s1⟩ := r
      intro h1
      cases h1
      exact h p s1
    · exact h p s.1
  intro c s
  show (padPieces w (splitLines c) s).1 = true
  generalize splitLines c = ps
  induction ps generalizing s with
  | nil => rfl
  | cons p ps ih =>
    have h1 := hp p s
    unfold padPieces
    revert h1
    generalize padPiece w p s = r
    obtain ⟨ok, s1⟩ := r
    intro h1
    cases h1
    exact ih s1

theorem emits_padded {a : Action} {t : List Char} (h : Emits a t) : Emits (padded a) (indent true t) := by
  intro σ τ w S s
  obtain ⟨ok, s1, h1, ⟨c1, hp, ho, hk⟩, hi⟩ := h (padAdapter w) (padSem S) (s, true)
  refine ⟨ok, s1.1, by simp only [padded, h1], ⟨c1, hp, ho, fun h => ⟨(hk h).1, ?_⟩⟩, fun h => hi (infallible_pad h)⟩
  exact congrArg Prod.fst (hk h).2

end Aes.Fmt
