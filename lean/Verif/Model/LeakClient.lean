import Verif.Model.LeakTable
import Verif.Model.LeakBitslice
import Verif.Model.LeakHw
import Verif.Model.Client
/-
Leakage of whole client programs: the machine of Verif/Model/Client.lean with the trace of every call.
-/
namespace Aes.Leak
open Rust Target Client

/-- The selected `AesBlock` module's functions (src/lib.rs:44-92), with leakage. -/
instance (t : Target) : LBlock t.Block :=
  match t with
  | .table => inferInstanceAs (LBlock Aes.Table.Block)
  | .bitslice e => inferInstanceAs (LBlock (Aes.Bitslice.Block e))
  | .x86 | .x86Vaes | .x86Vaes512 => inferInstanceAs (LBlock Aes.X86.Block)
  | .arm is32 => inferInstanceAs (LBlock (Aes.Arm.Block is32))
  | .riscv64 => inferInstanceAs (LBlock Aes.Riscv64.Block)
  | .riscv32 => inferInstanceAs (LBlock Aes.Riscv32.Block)

/-- The selected `AesBlockX2` module's functions (src/lib.rs:94-106), with leakage. -/
instance (t : Target) : LVec t.X2 32 :=
  match t with
  | .table => inferInstanceAs (LVec (DefaultX2.X2 Aes.Table.Block) 32)
  | .bitslice e => inferInstanceAs (LVec (DefaultX2.X2 (Aes.Bitslice.Block e)) 32)
  | .x86 => inferInstanceAs (LVec (DefaultX2.X2 Aes.X86.Block) 32)
  | .x86Vaes | .x86Vaes512 => inferInstanceAs (LVec Aes.NiX2.X2 32)
  | .arm is32 => inferInstanceAs (LVec (DefaultX2.X2 (Aes.Arm.Block is32)) 32)
  | .riscv64 => inferInstanceAs (LVec (DefaultX2.X2 Aes.Riscv64.Block) 32)
  | .riscv32 => inferInstanceAs (LVec (DefaultX2.X2 Aes.Riscv32.Block) 32)

/-- The selected `AesBlockX4` module's functions (src/lib.rs:108-121), with leakage. -/
instance (t : Target) : LVec t.X4 64 :=
  match t with
  | .table => inferInstanceAs (LVec (DefaultX4.X4 (DefaultX2.X2 Aes.Table.Block)) 64)
  | .bitslice e => inferInstanceAs (LVec (DefaultX4.X4 (DefaultX2.X2 (Aes.Bitslice.Block e))) 64)
  | .x86 => inferInstanceAs (LVec (DefaultX4.X4 (DefaultX2.X2 Aes.X86.Block)) 64)
  | .x86Vaes => inferInstanceAs (LVec (DefaultX4.X4 Aes.NiX2.X2) 64)
  | .x86Vaes512 => inferInstanceAs (LVec Aes.NiX4.X4 64)
  | .arm is32 => inferInstanceAs (LVec (DefaultX4.X4 (DefaultX2.X2 (Aes.Arm.Block is32))) 64)
  | .riscv64 => inferInstanceAs (LVec (DefaultX4.X4 (DefaultX2.X2 Aes.Riscv64.Block)) 64)
  | .riscv32 => inferInstanceAs (LVec (DefaultX4.X4 (DefaultX2.X2 Aes.Riscv32.Block)) 64)

/-- The three block types. -/
instance (t : Target) (w : Width) : LVec (t.Vec w) w.size :=
  match w with
  | .x1 => inferInstanceAs (LVec t.Block 16)
  | .x2 => inferInstanceAs (LVec t.X2 32)
  | .x4 => inferInstanceAs (LVec t.X4 64)

/-- The binary operations (see `Client.binOf`). -/
def binOf {T : Type} {n : Nat} [LVec T n] : BinOp → T → T → L T
  | .and => LVec.bitand
  | .or => LVec.bitor
  | .xor => LVec.bitxor
  | .enc => LVec.enc
  | .dec => LVec.dec
  | .encLast => LVec.enc_last
  | .decLast => LVec.dec_last
/-- src/lib.rs:190-209 the compound assignments: `*self = *self op rhs`. -/
def assignOf {T : Type} {n : Nat} [LVec T n] : AssignOp → T → T → L T
  | .and => LVec.bitand
  | .or => LVec.bitor
  | .xor => LVec.bitxor
/-- See `Client.encFromOf`. -/
def encFromOf (B : Type) [LBlock B] : (k : KeySize) → Vector U8 k.bytes → L (AesEnc B k.rounds)
  | .k128 => enc_from_128
  | .k192 => enc_from_192
  | .k256 => enc_from_256
/-- See `Client.decFromOf`. -/
def decFromOf (B : Type) [LBlock B] : (k : KeySize) → Vector U8 k.bytes → L (AesDec B k.rounds)
  | .k128 => dec_from_128
  | .k192 => dec_from_192
  | .k256 => dec_from_256
/-- See `Client.encryptOf`. -/
def encryptOf (t : Target) {nr : Nat} (e : AesEnc t.Block nr) : (w : Width) → t.Vec w → L (t.Vec w)
  | .x1 => encrypt (T := t.Block) id e
  | .x2 => encrypt (T := t.X2) (AesBlockX2.from_block (T := t.X2)) e
  | .x4 => encrypt (T := t.X4) (AesBlockX4.from_block (T := t.X4)) e
/-- See `Client.decryptOf`. -/
def decryptOf (t : Target) {nr : Nat} (e : AesDec t.Block nr) : (w : Width) → t.Vec w → L (t.Vec w)
  | .x1 => decrypt (T := t.Block) id e
  | .x2 => decrypt (T := t.X2) (AesBlockX2.from_block (T := t.X2)) e
  | .x4 => decrypt (T := t.X4) (AesBlockX4.from_block (T := t.X4)) e

section
variable {I : Impl}
/-- See `Client.need`: naming an operand leaks nothing. -/
def need {α : Type} (s : Store I) (a : Option α) (f : α → L (Obs × Store I)) : L (Obs × Store I) :=
  match a with
  | some x => f x
  | none => pure (.illTyped, s)
/-- See `Client.retM`: the trace of the call; a panic is caught by the client. -/
def retM {α : Type} (s : Store I) (m : L α) (val : α → List (Val I)) : L (Obs × Store I) :=
  ⟨m.trace, .ok (Client.retM s m.out val)⟩
/-- See `Client.seeM`. -/
def seeM {α : Type} (s : Store I) (m : L α) (obs : α → Obs) : L (Obs × Store I) :=
  ⟨m.trace, .ok (Client.seeM s m.out obs)⟩
/-- See `Client.retTry`. -/
def retTry {w : Width} (s : Store I) (m : L (Except Nat (I.V w))) : L (Obs × Store I) :=
  ⟨m.trace, .ok (Client.retTry s m.out)⟩
/-- The result replaces variable `i` (see `Client.step`, `assign`; these operations cannot panic). -/
def setM (s : Store I) (i : Nat) {α : Type} (m : L α) (val : α → Val I) : L (Obs × Store I) := do
  let x ← m
  pure (.done, s.set i (val x))
end

/-- One call, with its trace (see `Client.step`). Moves between tuples and blocks produce no event; formatting is not
covered (its trace is left empty here, and the theorems exclude it). -/
def step (t : Target) (s : Store (crate t)) : Call → L (Obs × Store (crate t))
  | .clone i => pure (Client.step (crate t) s (.clone i))
  | .new w b => retM s (LVec.new b : L (t.Vec w)) fun x => [.vec w x]
  | .from_bytes w b => retM s (LVec.from_bytes b : L (t.Vec w)) fun x => [.vec w x]
  | .from_ref w b => retM s (LVec.from_bytes b : L (t.Vec w)) fun x => [.vec w x]
  | .try_from w b => retTry (I := crate t) (w := w) s (try_from b : L (Except Nat (t.Vec w)))
  | .zero w => retM s (LVec.zero : L (t.Vec w)) fun x => [.vec w x]
  | .default_ w => retM s (LVec.zero : L (t.Vec w)) fun x => [.vec w x]
  | .into_bytes w i => need s (s.vec? w i) fun x => seeM s (into_bytes (T := t.Vec w) x) fun b => .bytes b.toList
  | .store_to w i dst => need s (s.vec? w i) fun x => seeM s (LVec.store_to (T := t.Vec w) x dst) fun b => .bytes b
  | .is_zero w i => need s (s.vec? w i) fun x => seeM s (LVec.is_zero (T := t.Vec w) x) .bool
  | .eq w i j => need s (s.vec? w i) fun x => need s (s.vec? w j) fun y => seeM s (LVec.eq (T := t.Vec w) x y) .bool
  | .bin w op i j => need s (s.vec? w i) fun x => need s (s.vec? w j) fun y =>
      retM s (binOf (T := t.Vec w) op x y) fun z => [.vec w z]
  | .assign w op i j => need s (s.vec? w i) fun x => need s (s.vec? w j) fun y =>
      setM s i (assignOf (T := t.Vec w) op x y) fun z => .vec w z
  | .not w i => need s (s.vec? w i) fun x => retM s (LVec.not (T := t.Vec w) x) fun z => [.vec w z]
  | .chain_enc w i keys => need s (s.vec? w i) fun x => need s (s.vecs? w keys) fun ks =>
      retM s (chain_enc (T := t.Vec w) x ks) fun y => [.vec w y]
  | .chain_dec w i keys => need s (s.vec? w i) fun x => need s (s.vecs? w keys) fun ks =>
      retM s (chain_dec (T := t.Vec w) x ks) fun y => [.vec w y]
  | .mc i => need s (s.vec? .x1 i) fun x => retM s (LBlock.mc (B := t.Block) x) fun y => [.vec .x1 y]
  | .imc i => need s (s.vec? .x1 i) fun x => retM s (LBlock.imc (B := t.Block) x) fun y => [.vec .x1 y]
  | .from_u128 n => retM s (from_u128 n : L t.Block) fun x => [.vec .x1 x]
  | .into_u128 i => need s (s.vec? .x1 i) fun x => seeM s (into_u128 (B := t.Block) x) fun n => .num n
  | .from_pair i j => pure (Client.step (crate t) s (.from_pair i j))
  | .to_pair i => pure (Client.step (crate t) s (.to_pair i))
  | .from_block2 i => pure (Client.step (crate t) s (.from_block2 i))
  | .from_quad i j k l => pure (Client.step (crate t) s (.from_quad i j k l))
  | .to_quad i => pure (Client.step (crate t) s (.to_quad i))
  | .from_x2_pair i j => pure (Client.step (crate t) s (.from_x2_pair i j))
  | .to_x2_pair i => pure (Client.step (crate t) s (.to_x2_pair i))
  | .from_block4 i => pure (Client.step (crate t) s (.from_block4 i))
  | .from_x2 i => pure (Client.step (crate t) s (.from_x2 i))
  | .format1 st o i => pure (Client.step (crate t) s (.format1 st o i))
  | .format2 o i => pure (Client.step (crate t) s (.format2 o i))
  | .format4 o i => pure (Client.step (crate t) s (.format4 o i))
  | .encFrom k key => retM s (encFromOf t.Block k key) fun e => [.enc k e]
  | .decFrom k key => retM s (decFromOf t.Block k key) fun d => [.dec k d]
  | .decrypter k i => need s (s.enc? k i) fun e => retM s (decrypter (B := t.Block) e) fun d => [.dec k d]
  | .encrypter k i => need s (s.dec? k i) fun d => retM s (encrypter (B := t.Block) d) fun e => [.enc k e]
  | .encrypt k w e i => need s (s.enc? k e) fun e => need s (s.vec? w i) fun x =>
      retM s (encryptOf t e w x) fun y => [.vec w y]
  | .decrypt k w d i => need s (s.dec? k d) fun d => need s (s.vec? w i) fun x =>
      retM s (decryptOf t d w x) fun y => [.vec w y]
  | .formatE k o i => pure (Client.step (crate t) s (.formatE k o i))
  | .formatD k o i => pure (Client.step (crate t) s (.formatD k o i))

/-- The first `n` steps of a client, with their trace (see `Client.run`). -/
def run (t : Target) (client : Client) : Nat → L (List Obs × Store (crate t))
  | 0 => pure ([], [])
  | n + 1 => do
    let r ← run t client n
    match client r.1 with
    | none => pure r
    | some c => do
      let q ← step t r.2 c
      pure (r.1 ++ [q.1], q.2)

/-- What an observer of timing, branches and memory accesses learns from the first `n` calls of a client that is linked
against the crate for target `t`. -/
def leakage (t : Target) (client : Client) (n : Nat) : List Event := (run t client n).trace

end Aes.Leak
