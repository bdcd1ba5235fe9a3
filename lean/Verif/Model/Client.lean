import Verif.Model.Target
import Verif.Model.Fmt
/-
Client programs: what a program that uses the crate through its public API can do and can see.

`Impl` lists the public API (one field per public method, operator or conversion impl of src/lib.rs and of the modules it
re-exports); `crate t` fills it with the model of the code selected on target `t`. A client drives an implementation by
issuing calls; it cannot look into values, it only sees observations (bytes, booleans, numbers, texts, panics), and it may
choose every call depending on all observations made so far.
-/
namespace Aes.Client
open Rust Target Fmt

/-- The three key sizes (src/lib.rs:520-522). -/
inductive KeySize where
  | k128 | k192 | k256
deriving DecidableEq, Repr

/-- `$key_len` of src/lib.rs:520-522. -/
def KeySize.bytes : KeySize → Nat
  | k128 => 16
  | k192 => 24
  | k256 => 32
/-- `$nr` of src/lib.rs:520-522. -/
def KeySize.rounds : KeySize → Nat
  | k128 => 10
  | k192 => 12
  | k256 => 14

/-- The binary operations that all three block types have. -/
inductive BinOp where
  | and | or | xor | enc | dec | encLast | decLast
deriving DecidableEq, Repr
/-- The compound assignments (src/lib.rs:190-209). -/
inductive AssignOp where
  | and | or | xor
deriving DecidableEq, Repr
/-- The formatting traits of `AesBlock` (src/lib.rs:215-265). -/
inductive Style where
  | display | debug | lowerHex | upperHex | binary
deriving DecidableEq, Repr

/-- The public API. -/
structure Impl where
  /-- `AesBlock`, `AesBlockX2`, `AesBlockX4` -/
  V : Width → Type
  /-- `Aes128Enc`, `Aes192Enc`, `Aes256Enc` -/
  E : KeySize → Type
  /-- `Aes128Dec`, `Aes192Dec`, `Aes256Dec` -/
  D : KeySize → Type
  new : (w : Width) → Vector U8 w.size → M (V w)
  from_bytes : (w : Width) → Vector U8 w.size → M (V w)
  from_ref : (w : Width) → Vector U8 w.size → M (V w)
  try_from : (w : Width) → List U8 → M (Except Nat (V w))
  zero : (w : Width) → V w
  default_ : (w : Width) → V w
  into_bytes : (w : Width) → V w → M (Vector U8 w.size)
  store_to : (w : Width) → V w → List U8 → M (List U8)
  is_zero : (w : Width) → V w → Bool
  eq : (w : Width) → V w → V w → Bool
  bin : (w : Width) → BinOp → V w → V w → V w
  assign : (w : Width) → AssignOp → V w → V w → V w
  not : (w : Width) → V w → V w
  chain_enc : (w : Width) → V w → List (V w) → M (V w)
  chain_dec : (w : Width) → V w → List (V w) → M (V w)
  mc : V .x1 → V .x1
  imc : V .x1 → V .x1
  from_u128 : U128 → M (V .x1)
  into_u128 : V .x1 → M U128
  from_pair : V .x1 × V .x1 → V .x2
  to_pair : V .x2 → V .x1 × V .x1
  from_block2 : V .x1 → V .x2
  from_quad : V .x1 × V .x1 × V .x1 × V .x1 → V .x4
  to_quad : V .x4 → V .x1 × V .x1 × V .x1 × V .x1
  from_x2_pair : V .x2 × V .x2 → V .x4
  to_x2_pair : V .x4 → V .x2 × V .x2
  from_block4 : V .x1 → V .x4
  from_x2 : V .x2 → V .x4
  format1 : Style → Opts → V .x1 → M (List Char)
  format2 : Opts → V .x2 → M (List Char)
  format4 : Opts → V .x4 → M (List Char)
  encFrom : (k : KeySize) → Vector U8 k.bytes → M (E k)
  decFrom : (k : KeySize) → Vector U8 k.bytes → M (D k)
  decrypter : (k : KeySize) → E k → M (D k)
  encrypter : (k : KeySize) → D k → M (E k)
  encrypt : (k : KeySize) → (w : Width) → E k → V w → M (V w)
  decrypt : (k : KeySize) → (w : Width) → D k → V w → M (V w)
  formatE : (k : KeySize) → Opts → E k → M (List Char)
  formatD : (k : KeySize) → Opts → D k → M (List Char)

/-- A value a client holds (all the types are `Clone`). -/
inductive Val (I : Impl) where
  | vec (w : Width) (x : I.V w)
  | enc (k : KeySize) (e : I.E k)
  | dec (k : KeySize) (d : I.D k)

/-- The variables of a client, in order of creation. -/
abbrev Store (I : Impl) := List (Val I)

/-- One use of the API; the `Nat`s are variables. -/
inductive Call where
  | clone (i : Nat)
  | new (w : Width) (b : Vector U8 w.size)
  | from_bytes (w : Width) (b : Vector U8 w.size)
  | from_ref (w : Width) (b : Vector U8 w.size)
  | try_from (w : Width) (s : List U8)
  | zero (w : Width)
  | default_ (w : Width)
  | into_bytes (w : Width) (i : Nat)
  | store_to (w : Width) (i : Nat) (dst : List U8)
  | is_zero (w : Width) (i : Nat)
  | eq (w : Width) (i j : Nat)
  | bin (w : Width) (op : BinOp) (i j : Nat)
  | assign (w : Width) (op : AssignOp) (i j : Nat)
  | not (w : Width) (i : Nat)
  | chain_enc (w : Width) (i : Nat) (keys : List Nat)
  | chain_dec (w : Width) (i : Nat) (keys : List Nat)
  | mc (i : Nat)
  | imc (i : Nat)
  | from_u128 (n : U128)
  | into_u128 (i : Nat)
  | from_pair (i j : Nat)
  | to_pair (i : Nat)
  | from_block2 (i : Nat)
  | from_quad (i j k l : Nat)
  | to_quad (i : Nat)
  | from_x2_pair (i j : Nat)
  | to_x2_pair (i : Nat)
  | from_block4 (i : Nat)
  | from_x2 (i : Nat)
  | format1 (s : Style) (o : Opts) (i : Nat)
  | format2 (o : Opts) (i : Nat)
  | format4 (o : Opts) (i : Nat)
  | encFrom (k : KeySize) (key : Vector U8 k.bytes)
  | decFrom (k : KeySize) (key : Vector U8 k.bytes)
  | decrypter (k : KeySize) (i : Nat)
  | encrypter (k : KeySize) (i : Nat)
  | encrypt (k : KeySize) (w : Width) (e i : Nat)
  | decrypt (k : KeySize) (w : Width) (d i : Nat)
  | formatE (k : KeySize) (o : Opts) (i : Nat)
  | formatD (k : KeySize) (o : Opts) (i : Nat)

/-- What a client sees of a call. -/
inductive Obs where
  /-- the call returned; its results are new variables -/
  | done
  | bytes (b : List U8)
  | bool (b : Bool)
  | num (n : U128)
  /-- `TryFrom` returned `Err(n)` -/
  | err (n : Nat)
  | text (t : List Char)
  /-- a panic (which the client may catch) or undefined behaviour -/
  | fault (f : Fault)
  /-- the call names a variable that does not exist or has another type (a program that does not compile) -/
  | illTyped
deriving DecidableEq

section
variable {I : Impl}

/-- Variable `i`, if it is a block of width `w`. -/
def Store.vec? (s : Store I) (w : Width) (i : Nat) : Option (I.V w) :=
  match s[i]? with
  | some (.vec w' x) => if h : w' = w then some (h ▸ x) else none
  | _ => none
/-- Variable `i`, if it is an encrypter for key size `k`. -/
def Store.enc? (s : Store I) (k : KeySize) (i : Nat) : Option (I.E k) :=
  match s[i]? with
  | some (.enc k' x) => if h : k' = k then some (h ▸ x) else none
  | _ => none
/-- Variable `i`, if it is a decrypter for key size `k`. -/
def Store.dec? (s : Store I) (k : KeySize) (i : Nat) : Option (I.D k) :=
  match s[i]? with
  | some (.dec k' x) => if h : k' = k then some (h ▸ x) else none
  | _ => none
/-- Several variables. -/
def Store.vecs? (s : Store I) (w : Width) : List Nat → Option (List (I.V w))
  | [] => some []
  | i :: l =>
    match s.vec? w i, s.vecs? w l with
    | some x, some xs => some (x :: xs)
    | _, _ => none

/-- Run `f` on the operand if it is there. -/
def need {α : Type} (s : Store I) (a : Option α) (f : α → Obs × Store I) : Obs × Store I :=
  match a with
  | some x => f x
  | none => (.illTyped, s)
/-- The results become new variables. -/
def ret (s : Store I) (r : List (Val I)) : Obs × Store I := (.done, s ++ r)
/-- The same for a call that may panic. -/
def retM {α : Type} (s : Store I) (m : M α) (val : α → List (Val I)) : Obs × Store I :=
  match m with
  | .ok x => (.done, s ++ val x)
  | .error f => (.fault f, s)
/-- The result is shown to the client. -/
def seeM {α : Type} (s : Store I) (m : M α) (obs : α → Obs) : Obs × Store I :=
  match m with
  | .ok x => (obs x, s)
  | .error f => (.fault f, s)
/-- The result of `TryFrom`. -/
def retTry {w : Width} (s : Store I) (m : M (Except Nat (I.V w))) : Obs × Store I :=
  match m with
  | .ok (.ok x) => (.done, s ++ [.vec w x])
  | .ok (.error n) => (.err n, s)
  | .error f => (.fault f, s)

/-- One call. -/
def step (I : Impl) (s : Store I) : Call → Obs × Store I
  | .clone i => need s s[i]? fun v => ret s [v]
  | .new w b => retM s (I.new w b) fun x => [.vec w x]
  | .from_bytes w b => retM s (I.from_bytes w b) fun x => [.vec w x]
  | .from_ref w b => retM s (I.from_ref w b) fun x => [.vec w x]
  | .try_from w b => retTry s (I.try_from w b)
  | .zero w => ret s [.vec w (I.zero w)]
  | .default_ w => ret s [.vec w (I.default_ w)]
  | .into_bytes w i => need s (s.vec? w i) fun x => seeM s (I.into_bytes w x) fun b => .bytes b.toList
  | .store_to w i dst => need s (s.vec? w i) fun x => seeM s (I.store_to w x dst) fun b => .bytes b
  | .is_zero w i => need s (s.vec? w i) fun x => (.bool (I.is_zero w x), s)
  | .eq w i j => need s (s.vec? w i) fun x => need s (s.vec? w j) fun y => (.bool (I.eq w x y), s)
  | .bin w op i j => need s (s.vec? w i) fun x => need s (s.vec? w j) fun y => ret s [.vec w (I.bin w op x y)]
  | .assign w op i j => need s (s.vec? w i) fun x => need s (s.vec? w j) fun y =>
      (.done, s.set i (.vec w (I.assign w op x y)))
  | .not w i => need s (s.vec? w i) fun x => ret s [.vec w (I.not w x)]
  | .chain_enc w i keys => need s (s.vec? w i) fun x => need s (s.vecs? w keys) fun ks =>
      retM s (I.chain_enc w x ks) fun y => [.vec w y]
  | .chain_dec w i keys => need s (s.vec? w i) fun x => need s (s.vecs? w keys) fun ks =>
      retM s (I.chain_dec w x ks) fun y => [.vec w y]
  | .mc i => need s (s.vec? .x1 i) fun x => ret s [.vec .x1 (I.mc x)]
  | .imc i => need s (s.vec? .x1 i) fun x => ret s [.vec .x1 (I.imc x)]
  | .from_u128 n => retM s (I.from_u128 n) fun x => [.vec .x1 x]
  | .into_u128 i => need s (s.vec? .x1 i) fun x => seeM s (I.into_u128 x) fun n => .num n
  | .from_pair i j => need s (s.vec? .x1 i) fun x => need s (s.vec? .x1 j) fun y => ret s [.vec .x2 (I.from_pair (x, y))]
  | .to_pair i => need s (s.vec? .x2 i) fun x => ret s [.vec .x1 (I.to_pair x).1, .vec .x1 (I.to_pair x).2]
  | .from_block2 i => need s (s.vec? .x1 i) fun x => ret s [.vec .x2 (I.from_block2 x)]
  | .from_quad i j k l => need s (s.vec? .x1 i) fun x => need s (s.vec? .x1 j) fun y => need s (s.vec? .x1 k) fun z =>
      need s (s.vec? .x1 l) fun u => ret s [.vec .x4 (I.from_quad (x, y, z, u))]
  | .to_quad i => need s (s.vec? .x4 i) fun x => ret s [.vec .x1 (I.to_quad x).1, .vec .x1 (I.to_quad x).2.1,
      .vec .x1 (I.to_quad x).2.2.1, .vec .x1 (I.to_quad x).2.2.2]
  | .from_x2_pair i j => need s (s.vec? .x2 i) fun x => need s (s.vec? .x2 j) fun y =>
      ret s [.vec .x4 (I.from_x2_pair (x, y))]
  | .to_x2_pair i => need s (s.vec? .x4 i) fun x => ret s [.vec .x2 (I.to_x2_pair x).1, .vec .x2 (I.to_x2_pair x).2]
  | .from_block4 i => need s (s.vec? .x1 i) fun x => ret s [.vec .x4 (I.from_block4 x)]
  | .from_x2 i => need s (s.vec? .x2 i) fun x => ret s [.vec .x4 (I.from_x2 x)]
  | .format1 st o i => need s (s.vec? .x1 i) fun x => seeM s (I.format1 st o x) fun t => .text t
  | .format2 o i => need s (s.vec? .x2 i) fun x => seeM s (I.format2 o x) fun t => .text t
  | .format4 o i => need s (s.vec? .x4 i) fun x => seeM s (I.format4 o x) fun t => .text t
  | .encFrom k key => retM s (I.encFrom k key) fun e => [.enc k e]
  | .decFrom k key => retM s (I.decFrom k key) fun d => [.dec k d]
  | .decrypter k i => need s (s.enc? k i) fun e => retM s (I.decrypter k e) fun d => [.dec k d]
  | .encrypter k i => need s (s.dec? k i) fun d => retM s (I.encrypter k d) fun e => [.enc k e]
  | .encrypt k w e i => need s (s.enc? k e) fun e => need s (s.vec? w i) fun x =>
      retM s (I.encrypt k w e x) fun y => [.vec w y]
  | .decrypt k w d i => need s (s.dec? k d) fun d => need s (s.vec? w i) fun x =>
      retM s (I.decrypt k w d x) fun y => [.vec w y]
  | .formatE k o i => need s (s.enc? k i) fun e => seeM s (I.formatE k o e) fun t => .text t
  | .formatD k o i => need s (s.dec? k i) fun d => seeM s (I.formatD k o d) fun t => .text t
end

/-- A client: its next call (or none) as a function of everything it has seen so far. -/
abbrev Client := List Obs → Option Call

/-- The first `n` steps of a client: what it has seen, and its variables. -/
def run (I : Impl) (client : Client) : Nat → List Obs × Store I
  | 0 => ([], [])
  | n + 1 =>
    match client (run I client n).1 with
    | none => run I client n
    | some c => ((run I client n).1 ++ [(step I (run I client n).2 c).1], (step I (run I client n).2 c).2)

/-- What the client has seen after `n` steps. -/
def observe (I : Impl) (client : Client) (n : Nat) : List Obs := (run I client n).1

/-! ### The crate on a target -/

/-- The binary operations, on the model. -/
def binOf {T : Type} {n : Nat} [AesVec T n] : BinOp → T → T → T
  | .and => AesVec.bitand
  | .or => AesVec.bitor
  | .xor => AesVec.bitxor
  | .enc => AesVec.enc
  | .dec => AesVec.dec
  | .encLast => AesVec.enc_last
  | .decLast => AesVec.dec_last
/-- The assignments (src/lib.rs:190-209). -/
def assignOf {T : Type} {n : Nat} [AesVec T n] : AssignOp → T → T → T
  | .and => bitand_assign
  | .or => bitor_assign
  | .xor => bitxor_assign
/-- The formatting traits (src/lib.rs:215-265). -/
def styleOf {B : Type} [AesBlock B] : Style → B → Opts → Action
  | .display => display
  | .debug => Fmt.debug
  | .lowerHex => lowerHex
  | .upperHex => upperHex
  | .binary => binary
/-- `From<[u8; $key_len]>` of the encrypters (src/lib.rs:437-443,520-522). -/
def encFromOf (B : Type) [AesBlock B] : (k : KeySize) → Vector U8 k.bytes → M (AesEnc B k.rounds)
  | .k128 => Aes128Enc.from
  | .k192 => Aes192Enc.from
  | .k256 => Aes256Enc.from
/-- `From<[u8; $key_len]>` of the decrypters (src/lib.rs:452-456,520-522). -/
def decFromOf (B : Type) [AesBlock B] : (k : KeySize) → Vector U8 k.bytes → M (AesDec B k.rounds)
  | .k128 => Aes128Dec.from
  | .k192 => Aes192Dec.from
  | .k256 => Aes256Dec.from
/-- `encrypt_block`, `encrypt_2_blocks`, `encrypt_4_blocks` (src/lib.rs:467-485). -/
def encryptOf (t : Target) {nr : Nat} (e : AesEnc t.Block nr) : (w : Width) → t.Vec w → M (t.Vec w)
  | .x1 => e.encrypt_block
  | .x2 => e.encrypt_2_blocks (X2 := t.X2)
  | .x4 => e.encrypt_4_blocks (X4 := t.X4)
/-- `decrypt_block`, `decrypt_2_blocks`, `decrypt_4_blocks` (src/lib.rs:497-515). -/
def decryptOf (t : Target) {nr : Nat} (d : AesDec t.Block nr) : (w : Width) → t.Vec w → M (t.Vec w)
  | .x1 => d.decrypt_block
  | .x2 => d.decrypt_2_blocks (X2 := t.X2)
  | .x4 => d.decrypt_4_blocks (X4 := t.X4)

/-- The model of the code, on target `t`. -/
def crate (t : Target) : Impl where
  V := t.Vec
  E k := AesEnc t.Block k.rounds
  D k := AesDec t.Block k.rounds
  new _ := AesVec.new
  from_bytes _ := AesVec.from_bytes
  from_ref _ := Aes.from_ref
  try_from _ := Aes.try_from
  zero _ := AesVec.zero
  default_ _ := Aes.default_
  into_bytes _ := Aes.into_bytes
  store_to _ := AesVec.store_to
  is_zero _ := AesVec.is_zero
  eq _ := AesVec.eq
  bin _ := binOf
  assign _ := assignOf
  not _ := AesVec.not
  chain_enc _ := Aes.chain_enc
  chain_dec _ := Aes.chain_dec
  mc := AesBlock.mc (B := t.Block)
  imc := AesBlock.imc (B := t.Block)
  from_u128 := Aes.from_u128 (B := t.Block)
  into_u128 := Aes.into_u128 (B := t.Block)
  from_pair := AesBlockX2.from_pair (T := t.X2)
  to_pair := AesBlockX2.to_pair (T := t.X2)
  from_block2 := AesBlockX2.from_block (T := t.X2)
  from_quad := AesBlockX4.from_quad (T := t.X4)
  to_quad := AesBlockX4.to_quad (T := t.X4)
  from_x2_pair := AesBlockX4.from_x2_pair (T := t.X4)
  to_x2_pair := AesBlockX4.to_x2_pair (T := t.X4)
  from_block4 := AesBlockX4.from_block (T := t.X4)
  from_x2 := AesBlockX4.from_x2 (T := t.X4)
  format1 st o x := format (styleOf (B := t.Block) st x o)
  format2 o x := format (debugX2 (X2 := t.X2) x o)
  format4 o x := format (debugX4 (X4 := t.X4) x o)
  encFrom := encFromOf t.Block
  decFrom := decFromOf t.Block
  decrypter _ e := AesEnc.decrypter e
  encrypter _ d := AesDec.encrypter d
  encrypt _ w e := encryptOf t e w
  decrypt _ w d := decryptOf t d w
  formatE _ o e := format (debugEnc e o)
  formatD _ o d := format (debugDec d o)

end Aes.Client
