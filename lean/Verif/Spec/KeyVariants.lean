import Verif.Spec.Fips197
/-
FIPS-197 Algorithm 2 with the transformation of `temp` as a parameter: used to say exactly which key
schedule the two deviating targets compute.
-/
namespace Fips197

/-- KEYEXPANSION with `temp := t i temp` in place of lines 8-13 of Algorithm 2. -/
def keyExpansionWith (t : Nat → Word → Word) (nk : Nat) {n : Nat} (key : Vector Byte n) (i : Nat) : Word :=
  if _h : i < nk ∨ nk = 0 then wordAt key i
  else Word.add (keyExpansionWith t nk key (i - nk)) (t i (keyExpansionWith t nk key (i - 1)))
termination_by i
decreasing_by all_goals omega

/-- The standard transformation of `temp`. -/
def stdTemp (nk i : Nat) (temp : Word) : Word :=
  if i % nk = 0 then Word.add (subWord (rotWord temp)) (rcon (i / nk))
  else if nk > 6 ∧ i % nk = 4 then subWord temp
  else temp

/-- With the standard transformation it is KEYEXPANSION. -/
theorem keyExpansionWith_std (nk : Nat) {n : Nat} (key : Vector Byte n) (i : Nat) :
    keyExpansionWith (stdTemp nk) nk key i = keyExpansion nk key i := by
  induction i using Nat.strongRecOn with
  | _ i ih =>
    rw [keyExpansionWith, keyExpansion]
    split
    · rfl
    · next h => rw [ih (i - nk) (by omega), ih (i - 1) (by omega)]; rfl

/-- The inverse of ROTWORD: [a0,a1,a2,a3] to [a3,a0,a1,a2]. -/
def rotWordInv (w : Word) : Word := fun i => w (i + 3)
/-- Rcon with its byte last instead of first: [{00}, {00}, {00}, x^(j-1)]. -/
def rconBig (j : Nat) : Word := fun i => if i = 3 then pow 0x02#8 (j - 1) else 0#8
/-- What a big-endian build of the bitslice backend does to `temp` (C42): rotates the other way, and adds
the round constant to the last byte. -/
def bigTemp (nk i : Nat) (temp : Word) : Word :=
  if i % nk = 0 then Word.add (subWord (rotWordInv temp)) (rconBig (i / nk))
  else if nk > 6 ∧ i % nk = 4 then subWord temp
  else temp

/-- What the riscv32 backend does to `temp` for 128- and 192-bit keys (C41): ROTWORD is missing. -/
def norotTemp (nk i : Nat) (temp : Word) : Word :=
  if i % nk = 0 then Word.add (subWord temp) (rcon (i / nk)) else temp
/-- What the riscv32 backend does to `temp` for 256-bit keys (C41): ROTWORD is missing in the last group
(`i = 56`) only. -/
def norotTemp256 (i : Nat) (temp : Word) : Word :=
  if i = 56 then Word.add (subWord temp) (rcon 7) else stdTemp 8 i temp

end Fips197
