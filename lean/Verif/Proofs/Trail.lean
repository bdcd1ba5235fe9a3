import Verif.Proofs.Diffusion
/-! Counting the differing bytes along four rounds: the wide trail argument, on patterns of differing bytes. -/
namespace Aes.Trail
open Aes.Diffusion

/-- Where two states differ: row, column. -/
abbrev Pat := Fin 4 → Fin 4 → Bool
/-- How many bytes differ. -/
def total (A : Pat) : Nat := wt (A · 0) + wt (A · 1) + wt (A · 2) + wt (A · 3)
/-- Does column `c` differ? -/
def act (A : Pat) (c : Fin 4) : Bool := A 0 c || A 1 c || A 2 c || A 3 c
/-- How many columns differ. -/
def cols (A : Pat) : Nat := wt (act A)
/-- The pattern after the byte at row `r` of column `c` is taken from column `sh r c`. -/
def moved (sh : Fin 4 → Fin 4 → Fin 4) (A : Pat) : Pat := fun r c => A r (sh r c)

/-- What a round does to a pattern: bytes move, then columns are mixed with branch number five. -/
def Round (sh : Fin 4 → Fin 4 → Fin 4) (A A' : Pat) : Prop :=
  ∀ c, act A' c = act (moved sh A) c ∧ (act A' c = true → 5 ≤ wt (moved sh A · c) + wt (A' · c))

/-- Row shifts: they permute each row and spread each column over all columns. -/
structure Shift (sh : Fin 4 → Fin 4 → Fin 4) : Prop where
  total : ∀ A, Trail.total (moved sh A) = Trail.total A
  spread : ∀ A c, wt (moved sh A · c) ≤ cols A
  gather : ∀ A c, wt (A · c) ≤ cols (moved sh A)

theorem wt_le_of {p q : Fin 4 → Bool} (h : ∀ i, p i = true → q i = true) : wt p ≤ wt q := by
  simp only [all4] at h
  simp only [wt]
  revert h
  cases p 0 <;> cases p 1 <;> cases p 2 <;> cases p 3 <;> cases q 0 <;> cases q 1 <;> cases q 2 <;> cases q 3 <;> decide
theorem act_of {A : Pat} {r c : Fin 4} (h : A r c = true) : act A c = true := by
  unfold act
  match r with
  | 0 => simp [h]
  | 1 => simp [h]
  | 2 => simp [h]
  | 3 => simp [h]

theorem wt_add (q : Fin 4 → Bool) (c : Fin 4) : wt (fun r => q (c + r)) = wt q := by
  match c with
  | 0 => simp [wt]
  | 1 => simp [wt, show (1 : Fin 4) + 1 = 2 from rfl, show (1 : Fin 4) + 2 = 3 from rfl, show (1 : Fin 4) + 3 = 0 from rfl]; omega
  | 2 => simp [wt, show (2 : Fin 4) + 1 = 3 from rfl, show (2 : Fin 4) + 2 = 0 from rfl, show (2 : Fin 4) + 3 = 1 from rfl]; omega
  | 3 => simp [wt, show (3 : Fin 4) + 1 = 0 from rfl, show (3 : Fin 4) + 2 = 1 from rfl, show (3 : Fin 4) + 3 = 2 from rfl]; omega
theorem wt_sub (q : Fin 4 → Bool) (c : Fin 4) : wt (fun r => q (c - r)) = wt q := by
  match c with
  | 0 => simp [wt, show (0 : Fin 4) - 1 = 3 from rfl, show (0 : Fin 4) - 2 = 2 from rfl, show (0 : Fin 4) - 3 = 1 from rfl]; omega
  | 1 => simp [wt, show (1 : Fin 4) - 1 = 0 from rfl, show (1 : Fin 4) - 2 = 3 from rfl, show (1 : Fin 4) - 3 = 2 from rfl]; omega
  | 2 => simp [wt, show (2 : Fin 4) - 1 = 1 from rfl, show (2 : Fin 4) - 2 = 0 from rfl, show (2 : Fin 4) - 3 = 3 from rfl]; omega
  | 3 => simp [wt, show (3 : Fin 4) - 1 = 2 from rfl, show (3 : Fin 4) - 2 = 1 from rfl, show (3 : Fin 4) - 3 = 0 from rfl]; omega

/-- ShiftRows. -/
def shR (r c : Fin 4) : Fin 4 := c + r
/-- InvShiftRows. -/
def shL (r c : Fin 4) : Fin 4 := c - r

theorem shR_shift : Shift shR where
  total A := by
    simp only [total, wt, moved, shR, show (0 : Fin 4) + 1 = 1 from rfl, show (0 : Fin 4) + 2 = 2 from rfl, show (0 : Fin 4) + 3 = 3 from rfl,
      show (1 : Fin 4) + 1 = 2 from rfl, show (1 : Fin 4) + 2 = 3 from rfl, show (1 : Fin 4) + 3 = 0 from rfl,
      show (2 : Fin 4) + 1 = 3 from rfl, show (2 : Fin 4) + 2 = 0 from rfl, show (2 : Fin 4) + 3 = 1 from rfl,
      show (3 : Fin 4) + 1 = 0 from rfl, show (3 : Fin 4) + 2 = 1 from rfl, show (3 : Fin 4) + 3 = 2 from rfl, Fin.add_zero]
    omega
  spread A c := by
    rw [cols, ← wt_add (act A) c]
    exact wt_le_of fun r h => act_of (r := r) h
  gather A c := by
    rw [cols, ← wt_sub (act (moved shR A)) c]
    refine wt_le_of fun r h => act_of (r := r) ?_
    show A r (c - r + r) = true
    rw [show c - r + r = c by omega]; exact h
theorem shL_shift : Shift shL where
  total A := by
    simp only [total, wt, moved, shL, show (0 : Fin 4) - 1 = 3 from rfl, show (0 : Fin 4) - 2 = 2 from rfl, show (0 : Fin 4) - 3 = 1 from rfl,
      show (1 : Fin 4) - 1 = 0 from rfl, show (1 : Fin 4) - 2 = 3 from rfl, show (1 : Fin 4) - 3 = 2 from rfl,
      show (2 : Fin 4) - 1 = 1 from rfl, show (2 : Fin 4) - 2 = 0 from rfl, show (2 : Fin 4) - 3 = 3 from rfl,
      show (3 : Fin 4) - 1 = 2 from rfl, show (3 : Fin 4) - 2 = 1 from rfl, show (3 : Fin 4) - 3 = 0 from rfl, show (0 : Fin 4) - 0 = 0 from rfl, show (1 : Fin 4) - 0 = 1 from rfl,
      show (2 : Fin 4) - 0 = 2 from rfl, show (3 : Fin 4) - 0 = 3 from rfl]
    omega
  spread A c := by
    rw [cols, ← wt_sub (act A) c]
    exact wt_le_of fun r h => act_of (r := r) h
  gather A c := by
    rw [cols, ← wt_add (act (moved shL A)) c]
    refine wt_le_of fun r h => act_of (r := r) ?_
    show A r (c + r - r) = true
    rw [show c + r - r = c by omega]; exact h

variable {sh : Fin 4 → Fin 4 → Fin 4}

/-- Two rounds: five for each column that differs in between. -/
theorem two (hs : Shift sh) {A A' : Pat} (h : Round sh A A') : 5 * cols A' ≤ total A + total A' := by
  rw [← hs.total A]
  have key (c : Fin 4) : 5 * (act A' c).toNat ≤ wt (moved sh A · c) + wt (A' · c) := by
    cases hc : act A' c with
    | false => simp
    | true => simpa using (h c).2 hc
  have h0 := key 0
  have h1 := key 1
  have h2 := key 2
  have h3 := key 3
  simp only [cols, wt, total] at *
  omega

/-- Four rounds: twenty-five. -/
theorem four (hs : Shift sh) {A0 A1 A2 A3 : Pat} (h0 : Round sh A0 A1) (h1 : Round sh A1 A2) (h2 : Round sh A2 A3)
    (hne : ∃ c, act A2 c = true) : 25 ≤ total A0 + total A1 + total A2 + total A3 := by
  have e1 := two hs h0
  have e2 := two hs h2
  obtain ⟨c, hc⟩ := hne
  have e3 := (h1 c).2 hc
  have e4 := hs.spread A1 c
  have e5 := hs.gather A2 c
  have e6 : cols A3 = cols (moved sh A2) := by
    unfold cols
    exact congrArg wt (funext fun c => (h2 c).1)
  omega

end Aes.Trail
