import Verif.Spec.KeyVariants
/-
FIPS-197 Algorithm 2 run backwards. Algorithm 2 says `w[i] = w[i-Nk] + temp(w[i-1])` for `i >= Nk`; read from
right to left, `w[j] = w[j+Nk] + temp(w[j+Nk-1])`. So `Nk` consecutive words of a schedule give all the earlier
ones, and with them the key.
-/
namespace Fips197

/-- Word `j` of the schedule whose words `m, m+1, ..` are `f m, f (m+1), ..` (`t` as in `keyExpansionWith`). -/
def unexpand (t : Nat → Word → Word) (nk m : Nat) (f : Nat → Word) (j : Nat) : Word :=
  if _h : m ≤ j ∨ nk < 2 then f j
  else Word.add (unexpand t nk m f (j + nk)) (t (j + nk) (unexpand t nk m f (j + nk - 1)))
termination_by m - j
decreasing_by all_goals omega

/-- The key of `nk` words that stands at the beginning of that schedule; `d` is the words `m .. m + nk - 1`. -/
def recoverKey (t : Nat → Word → Word) (nk m : Nat) (d : Vector Byte (4 * nk)) : Vector Byte (4 * nk) :=
  Vector.ofFn fun i => unexpand t nk m (fun j => wordAt d (j - m)) (i.val / 4) ⟨i.val % 4, by omega⟩

end Fips197
