import Verif.Spec.Block
/-! How two blocks of bytes differ. Nothing of the model of the code is imported. -/
namespace AesSpec

/-- `a` and `b` differ exactly at the positions in `P`. -/
def DifferExactly (a b : Bytes 16) (P : Fin 16 → Prop) : Prop := ∀ j : Fin 16, a[j] ≠ b[j] ↔ P j
/-- The number of positions at which `a` and `b` differ. -/
def distance (a b : Bytes 16) : Nat := (List.finRange 16).countP fun j => a[j] != b[j]
/-- The column (of four consecutive bytes) of position `j`. -/
def columnOf (j : Fin 16) : Nat := j.val / 4
/-- The row of position `j`. -/
def rowOf (j : Fin 16) : Nat := j.val % 4

end AesSpec
