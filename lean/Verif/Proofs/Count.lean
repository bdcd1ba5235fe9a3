import Mathlib.Algebra.BigOperators.Fin
import Mathlib.Data.Fintype.Card
import Mathlib.Data.List.Nodup
import Verif.Spec.Count
/-! Counting. -/
namespace AesSpec
open scoped BigOperators

variable {α β : Type}

theorem AtMost.mono {P Q : α → Prop} {N : Nat} (h : AtMost Q N) (hPQ : ∀ a, P a → Q a) : AtMost P N :=
  fun l hl hp => h l hl fun a ha => hPQ a (hp a ha)

/-- Count the images under a function that is injective on the counted. -/
theorem AtMost.inj {P : α → Prop} {Q : β → Prop} {N : Nat} (h : AtMost Q N) (f : α → β)
    (hf : ∀ a b, P a → P b → f a = f b → a = b) (hPQ : ∀ a, P a → Q (f a)) : AtMost P N := by
  intro l hl hp
  have := h (l.map f) (List.Nodup.map_on (fun x hx y hy => hf x y (hp x hx) (hp y hy)) hl) (by
    intro b hb
    obtain ⟨a, ha, rfl⟩ := List.mem_map.1 hb
    exact hPQ a (hp a ha))
  simpa using this

theorem AtMost.prod {P : α → Prop} {Q : β → Prop} {N K : Nat} (h : AtMost P N) (h' : AtMost Q K) :
    AtMost (fun p : α × β => P p.1 ∧ Q p.2) (N * K) := by
  classical
  intro l hl hp
  have e1 : (l.toFinset.image Prod.fst).card ≤ N := by
    rw [← Finset.length_toList]
    refine h _ (Finset.nodup_toList _) fun a ha => ?_
    simp only [Finset.mem_toList, Finset.mem_image, List.mem_toFinset] at ha
    obtain ⟨p, hpl, rfl⟩ := ha
    exact (hp p hpl).1
  have e2 : (l.toFinset.image Prod.snd).card ≤ K := by
    rw [← Finset.length_toList]
    refine h' _ (Finset.nodup_toList _) fun a ha => ?_
    simp only [Finset.mem_toList, Finset.mem_image, List.mem_toFinset] at ha
    obtain ⟨p, hpl, rfl⟩ := ha
    exact (hp p hpl).2
  rw [← List.toFinset_card_of_nodup hl]
  refine le_trans (Finset.card_le_card (t := l.toFinset.image Prod.fst ×ˢ l.toFinset.image Prod.snd) ?_) ?_
  · intro p hpl
    rw [Finset.mem_product]
    exact ⟨Finset.mem_image_of_mem _ hpl, Finset.mem_image_of_mem _ hpl⟩
  · rw [Finset.card_product]
    exact Nat.mul_le_mul e1 e2

theorem AtMost.pi {n : Nat} {P : Fin n → α → Prop} {N : Fin n → Nat} (h : ∀ i, AtMost (P i) (N i)) :
    AtMost (fun f : Fin n → α => ∀ i, P i (f i)) (∏ i, N i) := by
  induction n with
  | zero =>
    intro l hl _
    have : l.length ≤ Fintype.card (Fin 0 → α) := hl.length_le_card
    simpa using this
  | succ n ih =>
    rw [Fin.prod_univ_succ]
    refine AtMost.inj (AtMost.prod (h 0) (ih (P := fun i => P i.succ) (N := fun i => N i.succ) fun i => h i.succ))
      (fun f => (f 0, fun i => f i.succ)) ?_ ?_
    · intro f g _ _ e
      obtain ⟨e0, e1⟩ := Prod.mk.inj e
      funext i
      refine Fin.cases e0 (fun i => congrFun e1 i) i
    · exact fun f hf => ⟨hf 0, fun i => hf i.succ⟩

/-- A list of candidates. -/
theorem AtMost.of_subset {P : α → Prop} (c : List α) (h : ∀ a, P a → a ∈ c) : AtMost P c.length :=
  fun _ hl hp => (hl.subperm fun a ha => h a (hp a ha)).length_le

theorem AtMost.byte (P : BitVec 8 → Prop) : AtMost P 256 := by
  refine AtMost.inj (β := Fin 256) (Q := fun _ => True) ?_ (fun x => ⟨x.toNat, x.isLt⟩) ?_ fun _ _ => trivial
  · intro l hl _
    simpa using hl.length_le_card
  · intro a b _ _ h
    exact BitVec.eq_of_toNat_eq (Fin.mk.inj h)

end AesSpec
