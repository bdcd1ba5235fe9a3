import Mathlib.Algebra.BigOperators.Fin
import Mathlib.Data.Fintype.Pi
import Verif.Spec.Count
/-! Linear approximations of functions on blocks. Nothing of the model of the code is imported. -/
namespace AesSpec
open scoped BigOperators

instance {n : Nat} : Fintype (BitVec n) := Fintype.ofEquiv (Fin (2 ^ n)) ⟨BitVec.ofFin, BitVec.toFin, fun _ => rfl, fun _ => rfl⟩
instance {α : Type} [Fintype α] {n : Nat} : Fintype (Vector α n) :=
  Fintype.ofEquiv (Fin n → α) ⟨Vector.ofFn, fun v i => v[i], fun _ => by funext i; simp, fun _ => by ext i; simp⟩

/-- The number of bits that are set both in `u` and in `x`. -/
def commonBits (u x : Bytes 16) : Nat := ∑ j : Fin 16, ∑ i : Fin 8, (u[j].getLsbD i && x[j].getLsbD i).toNat

/-- The parity of the bits of `x` that the mask `u` selects, as a sign: 1 if it is even, -1 if it is odd. -/
def sign (u x : Bytes 16) : Int := (-1) ^ commonBits u x

/-- How far the approximation "the parity of the bits `u` of the input is the parity of the bits `v` of the output" is from being
right for exactly half of the inputs: the number of the blocks for which it is right, less the number of those for which it is wrong. It is
`2 ^ 128` for an approximation that is always right, and about 0 for one that is worth nothing. -/
def imbalance (f : Bytes 16 → Bytes 16) (u v : Bytes 16) : Int := ∑ x : Bytes 16, sign u x * sign v (f x)

/-- A trail: masks before the first round and after each round. The product of the imbalances of the rounds, each with its key. -/
def trailImbalance (f : Bytes 16 → Bytes 16 → Bytes 16) : List (Bytes 16) → List (Bytes 16) → Int
  | u :: v :: us, k :: ks => imbalance (fun x => f x k) u v * trailImbalance f (v :: us) ks
  | _, _ => 1

/-- The sum over all lists of `n` blocks. -/
def sumLists : (n : Nat) → (List (Bytes 16) → Int) → Int
  | 0, F => F []
  | n + 1, F => ∑ b : Bytes 16, sumLists n fun bs => F (b :: bs)

end AesSpec
