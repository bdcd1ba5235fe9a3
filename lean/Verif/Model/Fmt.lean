import Verif.Model.Lib
/-
Model of the formatting impls of src/lib.rs (lines 214-280 and the derived `Debug`s of lines 430 and 445), on top of
the fragment of `core::fmt` they use. Text is a list of characters.

`core::fmt` is not part of /repo; the definitions of the first section transcribe the behaviour of its
`Formatter::pad_integral`, `DebugTuple`, `DebugStruct`, `DebugList` and `PadAdapter`, and are trusted.
-/
namespace Aes.Fmt
open Rust
universe u

/-! ### core::fmt -/

/-- `fmt::Alignment`. -/
inductive Align where
  | left | right | center
deriving DecidableEq, Repr

/-- `fmt::FormattingOptions`: everything that can stand after the `:` of a format spec. -/
structure Opts where
  fill : Char := ' '
  align : Option Align := none
  /-- `+` -/
  signPlus : Bool := false
  /-- `#` -/
  alternate : Bool := false
  /-- `0` -/
  zeroPad : Bool := false
  width : Option Nat := none
  precision : Option Nat := none
  /-- the `x?`/`X?` flags: `some false` lower, `some true` upper -/
  debugHex : Option Bool := none
deriving DecidableEq, Repr

/-- A `dyn fmt::Write` with state `σ`: `write_str` returns whether it succeeded, and the new state. -/
structure Writer (σ : Type) where
  write_str : List Char → σ → Bool × σ

/-- A `fmt` call, for any writer: `Ok(())` is `true`, `Err(fmt::Error)` is `false`. -/
structure Action where
  run : {σ : Type} → Writer σ → σ → M (Bool × σ)

/-- `Ok(())`. -/
def done : Action := ⟨fun _ s => .ok (true, s)⟩
/-- `f.write_str(t)`. -/
def write (t : List Char) : Action := ⟨fun w s => .ok (w.write_str t s)⟩
/-- `a?; b`. -/
def andThen (a b : Action) : Action := ⟨fun w s =>
  match a.run w s with
  | .error e => .error e
  | .ok (true, s) => b.run w s
  | .ok (false, s) => .ok (false, s)⟩
/-- `let x = m; a(x)` for a computation `m` that may panic. -/
def withM {α : Type} (m : M α) (a : α → Action) : Action := ⟨fun w s =>
  match m with
  | .error e => .error e
  | .ok x => (a x).run w s⟩
/-- `for x in l { f(x)?; } Ok(())`. -/
def forEach {α : Type u} (l : List α) (f : α → Action) : Action := match l with
  | [] => done
  | x :: l => andThen (f x) (forEach l f)
/-- `n` times `f.write_char(c)`. -/
def writeN (c : Char) (n : Nat) : Action := forEach (List.replicate n ()) fun _ => write [c]

/-- `Formatter::padding`: how many fill characters go before and after. -/
def padSplit (n : Nat) : Align → Nat × Nat
  | .left => (0, n)
  | .right => (n, 0)
  | .center => (n / 2, (n + 1) / 2)

/-- `Formatter::pad_integral(true, pfx, digits)` (a nonnegative integer). -/
def padIntegral (o : Opts) (pfx digits : List Char) : Action :=
  let writeHead : Action :=
    andThen (if o.signPlus then write ['+'] else done) (if o.alternate then write pfx else done)
  let len := (if o.signPlus then 1 else 0) + (if o.alternate then pfx.length else 0) + digits.length
  match o.width with
  | none => andThen writeHead (write digits)
  | some w =>
    if len ≥ w then andThen writeHead (write digits)
    else if o.zeroPad then andThen writeHead (andThen (writeN '0' (w - len)) (write digits))
    else
      let (pre, post) := padSplit (w - len) (o.align.getD .right)
      andThen (writeN o.fill pre) (andThen writeHead (andThen (write digits) (writeN o.fill post)))

/-- The digit characters of `fmt_int`: `0-9a-f` or `0-9A-F`. -/
def digitChar (upper : Bool) (d : Nat) : Char :=
  if d < 10 then Char.ofNat (48 + d) else Char.ofNat ((if upper then 55 else 87) + d)

/-- The digits of `n` in the given base, most significant first, no leading zero (`fuel` bounds their number; a `u8`
has at most eight). -/
def digitsOf (base : Nat) (upper : Bool) : (fuel : Nat) → Nat → List Char
  | 0, _ => []
  | fuel + 1, n =>
    (if n / base = 0 then [] else digitsOf base upper fuel (n / base)) ++ [digitChar upper (n % base)]

/-- `impl Binary for u8`. -/
def u8Binary (o : Opts) (x : U8) : Action := padIntegral o ['0', 'b'] (digitsOf 2 false 8 x.toNat)
/-- `impl LowerHex for u8`. -/
def u8LowerHex (o : Opts) (x : U8) : Action := padIntegral o ['0', 'x'] (digitsOf 16 false 8 x.toNat)
/-- `impl UpperHex for u8`. -/
def u8UpperHex (o : Opts) (x : U8) : Action := padIntegral o ['0', 'x'] (digitsOf 16 true 8 x.toNat)

/-- `str::split_inclusive('\n')`. -/
def splitLines : List Char → List (List Char)
  | [] => []
  | c :: cs =>
    if c = '\n' then [c] :: splitLines cs
    else match splitLines cs with
      | [] => [[c]]
      | l :: ls => (c :: l) :: ls

/-- One piece of `PadAdapter::write_str`: indent if at the start of a line. -/
def padPiece {σ : Type} (w : Writer σ) (piece : List Char) (s : σ × Bool) : Bool × (σ × Bool) :=
  let nl := decide (piece.getLast? = some '\n')
  if s.2 then
    match w.write_str [' ', ' ', ' ', ' '] s.1 with
    | (false, s') => (false, (s', s.2))
    | (true, s') => ((w.write_str piece s').1, ((w.write_str piece s').2, nl))
  else ((w.write_str piece s.1).1, ((w.write_str piece s.1).2, nl))

/-- The pieces in turn, stopping at the first failure. -/
def padPieces {σ : Type} (w : Writer σ) : List (List Char) → σ × Bool → Bool × (σ × Bool)
  | [], s => (true, s)
  | p :: ps, s =>
    match padPiece w p s with
    | (true, s) => padPieces w ps s
    | (false, s) => (false, s)

/-- `PadAdapter`: a writer that indents every line by four blanks; the flag is `on_newline`. -/
def padAdapter {σ : Type} (w : Writer σ) : Writer (σ × Bool) where
  write_str := fun t s => padPieces w (splitLines t) s

/-- Run an action through a fresh `PadAdapter` (`PadAdapterState::default()` has `on_newline: true`). -/
def padded (a : Action) : Action := ⟨fun w s =>
  match a.run (padAdapter w) (s, true) with
  | .error e => .error e
  | .ok (ok, s') => .ok (ok, s'.1)⟩

/-- `DebugTuple::field` for field number `i` (both flavours). -/
def tupleField (o : Opts) (i : Nat) (value : Opts → Action) : Action :=
  if o.alternate then
    andThen (if i = 0 then write ['(', '\n'] else done) (padded (andThen (value o) (write [',', '\n'])))
  else
    andThen (write (if i = 0 then ['('] else [',', ' '])) (value o)

/-- `impl Debug for` a tuple of `AesBlock`s (two or four, so never the one-element case): `debug_tuple("")`, the
fields, `finish()`. -/
def debugTuple (o : Opts) (values : List (Opts → Action)) : Action :=
  andThen (write []) (andThen
    (forEach values.zipIdx fun v => tupleField o v.2 v.1)
    (write [')']))

/-- `DebugInner::entry` number `i` of `debug_list()`. -/
def listEntry (o : Opts) (i : Nat) (value : Opts → Action) : Action :=
  if o.alternate then
    andThen (if i = 0 then write ['\n'] else done) (padded (andThen (value o) (write [',', '\n'])))
  else
    andThen (if i = 0 then done else write [',', ' ']) (value o)

/-- `impl Debug for [T; N]`: `f.debug_list().entries(self.iter()).finish()`. -/
def debugList (o : Opts) (values : List (Opts → Action)) : Action :=
  andThen (write ['[']) (andThen
    (forEach values.zipIdx fun v => listEntry o v.2 v.1)
    (write [']']))

/-- The derived `Debug` of a struct with one named field: `f.debug_struct(name).field(field, &self.field).finish()`. -/
def debugStruct1 (o : Opts) (name field : List Char) (value : Opts → Action) : Action :=
  andThen (write name) (
    if o.alternate then
      andThen (write [' ', '{', '\n']) (andThen
        (padded (andThen (write field) (andThen (write [':', ' ']) (andThen (value o) (write [',', '\n'])))))
        (write ['}']))
    else
      andThen (write [' ', '{', ' ']) (andThen
        (andThen (write field) (andThen (write [':', ' ']) (value o)))
        (write [' ', '}'])))

/-- `String as fmt::Write`: always appends. -/
def stringWriter : Writer (List Char) where
  write_str := fun t s => (true, s ++ t)

/-- `format!("{...}", x)`: the text; a formatting error would be a panic. -/
def format (a : Action) : M (List Char) :=
  match a.run stringWriter [] with
  | .error e => .error e
  | .ok (true, s) => .ok s
  | .ok (false, _) => .error .panic

/-! ### src/lib.rs -/

section block
variable {B : Type} [AesBlock B]

/-- The format spec `:>08b`. -/
def spec08b : Opts := { align := some .right, zeroPad := true, width := some 8 }
/-- The format specs `:>02x` and `:>02X`. -/
def spec02x : Opts := { align := some .right, zeroPad := true, width := some 2 }

/-- src/lib.rs:231-241 `impl Binary for AesBlock`. -/
def binary (self : B) (o : Opts) : Action :=
  andThen (if o.alternate then write ['0', 'b'] else done)
    (withM (into_bytes self) fun bytes => forEach bytes.toList fun digit => u8Binary spec08b digit)

/-- src/lib.rs:243-253 `impl LowerHex for AesBlock`. -/
def lowerHex (self : B) (o : Opts) : Action :=
  andThen (if o.alternate then write ['0', 'x'] else done)
    (withM (into_bytes self) fun bytes => forEach bytes.toList fun x => u8LowerHex spec02x x)

/-- src/lib.rs:255-265 `impl UpperHex for AesBlock`. -/
def upperHex (self : B) (o : Opts) : Action :=
  andThen (if o.alternate then write ['0', 'X'] else done)
    (withM (into_bytes self) fun bytes => forEach bytes.toList fun x => u8UpperHex spec02x x)

/-- src/lib.rs:221-229 `impl Display for AesBlock`: `{self:X}` and `{self:x}` carry no flags. -/
def display (self : B) (o : Opts) : Action :=
  if o.alternate then upperHex self {} else lowerHex self {}

/-- src/lib.rs:215-219 `impl Debug for AesBlock`. -/
def debug (self : B) (o : Opts) : Action := display self o

/-- src/lib.rs:267-271 `impl Debug for AesBlockX2`. -/
def debugX2 {X2 : Type} [AesBlockX2 B X2] (self : X2) (o : Opts) : Action :=
  let (a, b) := AesBlockX2.to_pair self
  debugTuple o [debug a, debug b]

/-- src/lib.rs:273-277 `impl Debug for AesBlockX4`. -/
def debugX4 {X2 X4 : Type} [AesBlockX4 B X2 X4] (self : X4) (o : Opts) : Action :=
  let (a, b, c, d) := AesBlockX4.to_quad self
  debugTuple o [debug a, debug b, debug c, debug d]

/-- `round_keys`. -/
def fieldName : List Char := ['r', 'o', 'u', 'n', 'd', '_', 'k', 'e', 'y', 's']
/-- `Aes128Enc`, `Aes192Enc`, `Aes256Enc` (src/lib.rs:520-522). -/
def encName (bits : List Char) : List Char := ['A', 'e', 's'] ++ bits ++ ['E', 'n', 'c']
/-- `Aes128Dec`, `Aes192Dec`, `Aes256Dec` (src/lib.rs:520-522). -/
def decName (bits : List Char) : List Char := ['A', 'e', 's'] ++ bits ++ ['D', 'e', 'c']
/-- The digits in the type names, by number of rounds (src/lib.rs:520-522). -/
def bitsName (nr : Nat) : List Char :=
  if nr = 10 then ['1', '2', '8'] else if nr = 12 then ['1', '9', '2'] else ['2', '5', '6']

/-- src/lib.rs:430 `#[derive(Debug)]` on the encrypter. -/
def debugEnc {nr : Nat} (self : AesEnc B nr) (o : Opts) : Action :=
  debugStruct1 o (encName (bitsName nr)) fieldName fun o => debugList o (self.round_keys.toList.map fun k => debug k)
/-- src/lib.rs:445 `#[derive(Debug)]` on the decrypter. -/
def debugDec {nr : Nat} (self : AesDec B nr) (o : Opts) : Action :=
  debugStruct1 o (decName (bitsName nr)) fieldName fun o => debugList o (self.round_keys.toList.map fun k => debug k)

end block
end Aes.Fmt
