import Verif.Model.Client
/-
Which calls are claimed to leak nothing (C34): the statement of the claim, not part of the model.
-/
namespace Aes.Leak
open Rust Target Client

/-- On which targets and block types `==` leaks nothing: those where it is not derived for a struct of several words or
blocks. -/
def ctEq : Target → Width → Bool
  | .bitslice _, .x1 | .x86, .x1 | .x86Vaes, .x1 | .x86Vaes512, .x1 | .arm _, .x1 => true
  | .x86Vaes, .x2 | .x86Vaes512, .x2 | .x86Vaes512, .x4 => true
  | _, _ => false

/-- The call with all data replaced by zeros: what remains is the function called, its variables, the type and the lengths of
the data. -/
def _root_.Aes.Client.Call.blank : Call → Call
  | .new w _ => .new w (Vector.replicate _ 0)
  | .from_bytes w _ => .from_bytes w (Vector.replicate _ 0)
  | .from_ref w _ => .from_ref w (Vector.replicate _ 0)
  | .try_from w s => .try_from w (List.replicate s.length 0)
  | .store_to w i dst => .store_to w i (List.replicate dst.length 0)
  | .from_u128 _ => .from_u128 0
  | .encFrom k _ => .encFrom k (Vector.replicate _ 0)
  | .decFrom k _ => .decFrom k (Vector.replicate _ 0)
  | c => c

/-- The calls that leak nothing on target `t`. -/
def silent (t : Target) : Call → Bool
  | .format1 .. | .format2 .. | .format4 .. | .formatE .. | .formatD .. => false
  | .eq w _ _ => ctEq t w
  | .bin _ op _ _ => t != .table || op == .and || op == .or || op == .xor
  | .chain_enc .. | .chain_dec .. | .mc .. | .imc .. | .encFrom .. | .decFrom .. | .decrypter .. | .encrypter .. | .encrypt ..
  | .decrypt .. => t != .table
  | _ => true

end Aes.Leak
