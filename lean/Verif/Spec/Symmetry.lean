import Verif.Spec.Block
/-
The rotation of the four columns of a block (C66). Imports nothing of the model of the code.
-/
namespace AesSpec

/-- The block with its columns rotated by one: its bytes are `b[4], ..., b[15], b[0], ..., b[3]`. -/
def rotateColumns (b : Bytes 16) : Bytes 16 := Vector.ofFn fun i : Fin 16 => b[(i.val + 4) % 16]

/-- The four columns of the block are equal. -/
def FourEqualColumns (b : Bytes 16) : Prop := ∀ (i : Nat) (h : i < 12), b[i] = b[i + 4]

end AesSpec
