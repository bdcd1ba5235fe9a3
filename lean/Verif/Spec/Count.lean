import Verif.Spec.Block
/-! Counting, and differences of blocks. Nothing of the model of the code is imported. -/
namespace AesSpec

/-- At most `N` things satisfy `P`. -/
def AtMost {α : Type} (P : α → Prop) (N : Nat) : Prop :=
  ∀ l : List α, l.Nodup → (∀ a ∈ l, P a) → l.length ≤ N

/-- The number of nonzero bytes. -/
def weight (d : Bytes 16) : Nat := (List.finRange 16).countP fun j => d[j] != 0#8

end AesSpec
