import Verif.Spec.Fips197
/-
Specification of the texts (C26-C28, C43): positional notation and the usual punctuation. Independent of the model.
-/
namespace TextSpec

/-- The sixteen digits. -/
def hexDigits (upper : Bool) : List Char :=
  if upper then ['0', '1', '2', '3', '4', '5', '6', '7', '8', '9', 'A', 'B', 'C', 'D', 'E', 'F']
  else ['0', '1', '2', '3', '4', '5', '6', '7', '8', '9', 'a', 'b', 'c', 'd', 'e', 'f']
/-- The character of a digit. -/
def digit (upper : Bool) (d : Nat) : Char := (hexDigits upper).getD d '?'

/-- `v` in positional notation with exactly `n` digits, most significant first. -/
def positional (upper : Bool) (base n v : Nat) : List Char :=
  (List.range n).map fun i => digit upper (v / base ^ (n - 1 - i) % base)

/-- Two hexadecimal digits per byte, in byte order. -/
def hexBytes (upper : Bool) (b : List (BitVec 8)) : List Char := b.flatMap fun x => positional upper 16 2 x.toNat
/-- Eight binary digits per byte, in byte order. -/
def binBytes (b : List (BitVec 8)) : List Char := b.flatMap fun x => positional false 2 8 x.toNat

/-- The value of a digit character. -/
def digitVal (c : Char) : Nat :=
  if '0' ≤ c ∧ c ≤ '9' then c.toNat - '0'.toNat
  else if 'a' ≤ c ∧ c ≤ 'f' then c.toNat - 'a'.toNat + 10
  else if 'A' ≤ c ∧ c ≤ 'F' then c.toNat - 'A'.toNat + 10
  else 0
/-- Read a numeral. -/
def readNum (base : Nat) (t : List Char) : Nat := t.foldl (fun acc c => base * acc + digitVal c) 0

/-- `a, b, c` -/
def commaSep : List (List Char) → List Char
  | [] => []
  | [a] => a
  | a :: b :: l => a ++ [',', ' '] ++ commaSep (b :: l)
/-- Every item on its own line, indented by `k` blanks and followed by a comma. -/
def lines (k : Nat) (l : List (List Char)) : List Char :=
  l.flatMap fun a => List.replicate k ' ' ++ a ++ [',', '\n']

/-- `(hex, hex, ...)`, or each on its own line. -/
def tupleText (alt : Bool) (bs : List (List (BitVec 8))) : List Char :=
  if alt then ['(', '\n'] ++ lines 4 (bs.map (hexBytes true)) ++ [')']
  else ['('] ++ commaSep (bs.map (hexBytes false)) ++ [')']

/-- `Aes128Enc`, ... for 10, 12 and 14 rounds. -/
def typeName (nr : Nat) (suffix : List Char) : List Char :=
  ['A', 'e', 's'] ++ (match nr with | 10 => ['1', '2', '8'] | 12 => ['1', '9', '2'] | _ => ['2', '5', '6']) ++ suffix
/-- What `{:?}` or (`alt`) `{:#?}` prints for a cipher object of the given name with the given round keys. -/
def cipherText (alt : Bool) (name : List Char) (rks : List (List (BitVec 8))) : List Char :=
  if alt then
    name ++ [' ', '{', '\n', ' ', ' ', ' ', ' ', 'r', 'o', 'u', 'n', 'd', '_', 'k', 'e', 'y', 's', ':', ' ', '[', '\n'] ++
      lines 8 (rks.map (hexBytes true)) ++ [' ', ' ', ' ', ' ', ']', ',', '\n', '}']
  else name ++ [' ', '{', ' ', 'r', 'o', 'u', 'n', 'd', '_', 'k', 'e', 'y', 's', ':', ' ', '['] ++
    commaSep (rks.map (hexBytes false)) ++ [']', ' ', '}']
end TextSpec
