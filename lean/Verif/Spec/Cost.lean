import Verif.Model.LeakClient
/-
Specification for C64: the work that a call does, and its price. Work is counted on the run that C34 and C61 are about: operations on
data (instructions on registers, word operations, casts, moves) and look-ups in constant tables. Branches (loop control, bounds
checks) and accesses to blocks and round keys in memory are not work. The prices are plain numbers: nothing here looks at the code.
-/
namespace AesSpec
open Aes Aes.Leak Aes.Client Aes.Target

/-- One event. -/
def work : Event → Nat
  | .op _ => 1
  | .read a _ => if a = .data then 0 else 1
  | .write _ _ => 0
  | .branch _ => 0
/-- A run. -/
def totalWork : List Event → Nat
  | [] => 0
  | e :: l => work e + totalWork l

/-- The price of an operation on one block. -/
def blockPrice : Target → BinOp → Nat
  | .table, .and | .table, .or | .table, .xor => 4
  | .table, .enc | .table, .dec => 60
  | .table, .encLast | .table, .decLast => 76
  | .bitslice _, .and | .bitslice _, .or | .bitslice _, .xor => 1
  | .bitslice _, .enc => 262
  | .bitslice _, .dec => 304
  | .bitslice _, .encLast => 235
  | .bitslice _, .decLast => 249
  | .x86, _ | .x86Vaes, _ | .x86Vaes512, _ => 1
  | .arm _, .and | .arm _, .or | .arm _, .xor => 1
  | .arm _, .enc | .arm _, .dec => 3
  | .arm _, .encLast | .arm _, .decLast => 2
  | .riscv64, .and | .riscv64, .or | .riscv64, .xor => 2
  | .riscv64, _ => 4
  | .riscv32, .and | .riscv32, .or | .riscv32, .xor => 4
  | .riscv32, _ => 20
/-- How often the operation on the widest available register is executed for a value of the width (README.md:11-14: vector AES for 2
and 4 blocks). -/
def passes : Target → Width → Nat
  | _, .x1 => 1
  | .x86Vaes, .x2 | .x86Vaes512, .x2 | .x86Vaes512, .x4 => 1
  | .x86Vaes, .x4 => 2
  | _, .x2 => 2
  | _, .x4 => 4
/-- The price of loading a block from bytes: the table-based implementation assembles its words from single bytes. -/
def loadPrice : Target → Nat
  | .table => 40
  | _ => 1
/-- The price of an operation on a value of any width. -/
def binPrice (t : Target) (w : Width) (op : BinOp) : Nat := passes t w * blockPrice t op
/-- `!x`. -/
def notPrice (t : Target) (w : Width) : Nat := binPrice t w .xor
/-- What a round in the middle of a chain saves against a separate round: the addition of the round key, where the instruction
for a round does it. -/
def savedPerRound (t : Target) (w : Width) : Nat :=
  match t with
  | .arm _ | .riscv32 => binPrice t w .xor
  | _ => 0
/-- `chain_enc` (`op = enc`) and `chain_dec` (`op = dec`) with `n` keys. -/
def chainPrice (t : Target) (w : Width) (op : BinOp) (n : Nat) : Nat :=
  binPrice t w .xor + (n - 1) * (binPrice t w op - savedPerRound t w)
/-- `mc`. -/
def mcPrice : Target → Nat
  | .table => 104
  | .bitslice _ => 27
  | .x86 | .x86Vaes | .x86Vaes512 => 2
  | .arm _ => 1
  | .riscv64 => 4
  | .riscv32 => 36
/-- `imc`. -/
def imcPrice : Target → Nat
  | .table => 104
  | .bitslice _ => 55
  | .x86 | .x86Vaes | .x86Vaes512 => 1
  | .arm _ => 1
  | .riscv64 => 2
  | .riscv32 => 36
/-- Key setup for encryption. -/
def keyPrice : Target → KeySize → Nat
  | .table, .k128 => 270
  | .table, .k192 => 260
  | .table, .k256 => 379
  | .bitslice _, .k128 => 2414
  | .bitslice _, .k192 => 1948
  | .bitslice _, .k256 => 3123
  | .x86, .k128 | .x86Vaes, .k128 | .x86Vaes512, .k128 => 70
  | .x86, .k192 | .x86Vaes, .k192 | .x86Vaes512, .k192 => 96
  | .x86, .k256 | .x86Vaes, .k256 | .x86Vaes512, .k256 => 91
  | .arm _, .k128 => 104
  | .arm _, .k192 => 100
  | .arm _, .k256 => 120
  | .riscv64, .k128 => 31
  | .riscv64, .k192 => 35
  | .riscv64, .k256 => 41
  | .riscv32, .k128 => 94
  | .riscv32, .k192 => 92
  | .riscv32, .k256 => 119

/-- The price of a call, for the calls that compute: it depends on the function, the width, the key size and the number of keys, and on
no data. -/
def price (t : Target) : Call → Option Nat
  | .new w _ => some (passes t w * loadPrice t)
  | .bin w op _ _ => some (binPrice t w op)
  | .assign w op _ _ => some (binPrice t w (match op with | .and => .and | .or => .or | .xor => .xor))
  | .not w _ => some (notPrice t w)
  | .chain_enc w _ keys => some (chainPrice t w .enc keys.length)
  | .chain_dec w _ keys => some (chainPrice t w .dec keys.length)
  | .mc _ => some (mcPrice t)
  | .imc _ => some (imcPrice t)
  | .encFrom k _ => some (keyPrice t k)
  | .decFrom k _ => some (keyPrice t k + (k.rounds - 1) * imcPrice t)
  | .decrypter k _ => some ((k.rounds - 1) * imcPrice t)
  | .encrypter k _ => some ((k.rounds - 1) * mcPrice t)
  | .encrypt k w _ _ => some (chainPrice t w .enc k.rounds + binPrice t w .encLast)
  | .decrypt k w _ _ => some (chainPrice t w .dec k.rounds + binPrice t w .decLast)
  | _ => none

end AesSpec
