/-!
Rust's types as the reference describes them, as far as this crate's declarations need it: what runs when a value is dropped, the auto traits, and the
layout of arrays and structs. Written without looking at the crate.
-/
namespace RustTypes

/-- A type: a primitive or a vector register, a struct, an array, or anything else (of which nothing is assumed). -/
inductive Ty where
  | prim (name : String)
  | named (name : String)
  | array (t : Ty) (n : Nat)
  | other (text : String)
  deriving Repr, DecidableEq

/-- `#[repr(transparent)]`, `#[repr(C, align(n))]`, or none. -/
inductive Repr where
  | transparent
  | c (align : Nat)
  | rust
  deriving DecidableEq

/-- A declaration of a struct; several of one name are alternatives, of which a configuration compiles one. -/
structure Struct where
  name : String
  file : String
  line : Nat
  derives : List String
  repr : Repr
  fields : List Ty

/-- `unsafe impl !Trait for type`; no trait in an inherent impl. In a macro the type may be a variable of it (`$name`). -/
structure ImplHeader where
  trait : Option String
  negative : Bool
  isUnsafe : Bool
  type : String
  file : String
  line : Nat

structure Static where
  name : String
  mutable : Bool
  type : String
  file : String
  line : Nat

structure Items where
  structs : List Struct
  impls : List ImplHeader
  statics : List Static

/-- The header may be one for the struct of this name. -/
def ImplHeader.isFor (i : ImplHeader) (n : String) : Prop := i.type = n ∨ i.type.startsWith "$"

/-- Dropping a value of the type runs code: a `Drop` impl of the type or, in turn, of a part. -/
inductive NeedsDrop (is : Items) : Ty → Prop
  | impl {i n} : i ∈ is.impls → i.trait = some "Drop" → i.isFor n → NeedsDrop is (.named n)
  | field {d f n} : d ∈ is.structs → d.name = n → f ∈ d.fields → NeedsDrop is f → NeedsDrop is (.named n)
  | element {t n} : NeedsDrop is t → NeedsDrop is (.array t n)
  | other {s} : NeedsDrop is (.other s)

/-- The type has the auto trait: integers and vector registers have, an array if its elements do, a struct if all its fields do and nothing says it has not.
(Raw pointers and references are `other`: nothing is assumed of them.) -/
inductive Auto (is : Items) (trait : String) : Ty → Prop
  | prim {p} : Auto is trait (.prim p)
  | array {t n} : Auto is trait t → Auto is trait (.array t n)
  | struct {n} : (∃ d ∈ is.structs, d.name = n) →
      (∀ i ∈ is.impls, i.trait = some trait → i.negative = true → ¬ i.isFor n) →
      (∀ d ∈ is.structs, d.name = n → ∀ f ∈ d.fields, Auto is trait f) → Auto is trait (.named n)

/-- Size and alignment of the primitive types. -/
abbrev Abi := String → Nat × Nat

/-- What is known of them on the platforms of the crate: sizes are fixed, alignments of wide integers and of Neon registers differ. -/
structure Abi.Plausible (abi : Abi) : Prop where
  u32 : abi "u32" = (4, 4)
  u64 : (abi "u64").1 = 8 ∧ ((abi "u64").2 = 4 ∨ (abi "u64").2 = 8)
  u128 : (abi "u128").1 = 16 ∧ ((abi "u128").2 = 4 ∨ (abi "u128").2 = 8 ∨ (abi "u128").2 = 16)
  m128 : abi "__m128i" = (16, 16)
  m256 : abi "__m256i" = (32, 32)
  m512 : abi "__m512i" = (64, 64)
  neon : (abi "uint8x16_t").1 = 16 ∧ ((abi "uint8x16_t").2 = 8 ∨ (abi "uint8x16_t").2 = 16)

def roundUp (n a : Nat) : Nat := (n + a - 1) / a * a
/-- Where the fields of a `repr(C)` struct end: each (size, alignment) starts at the next multiple of its alignment. -/
def cEnd : Nat → List (Nat × Nat) → Nat
  | offset, [] => offset
  | offset, l :: ls => cEnd (roundUp offset l.2 + l.1) ls
def cAlign (align : Nat) (ls : List (Nat × Nat)) : Nat := ls.foldl (fun a l => max a l.2) align

/-- The type may have this size and alignment. For a struct without a repr Rust only promises room for its field, and that the alignment divides the size. -/
inductive HasLayout (abi : Abi) (structs : List Struct) : Ty → Nat → Nat → Prop
  | prim {p} : HasLayout abi structs (.prim p) (abi p).1 (abi p).2
  | array {t n s a} : HasLayout abi structs t s a → HasLayout abi structs (.array t n) (n * s) a
  | transparent {d n f s a} : d ∈ structs → d.name = n → d.repr = .transparent → d.fields = [f] → HasLayout abi structs f s a →
      HasLayout abi structs (.named n) s a
  | c {d n align s a} (ls : List (Nat × Nat)) : d ∈ structs → d.name = n → d.repr = .c align → ls.length = d.fields.length →
      (∀ fl ∈ d.fields.zip ls, HasLayout abi structs fl.1 fl.2.1 fl.2.2) →
      a = cAlign align ls → s = roundUp (cEnd 0 ls) (cAlign align ls) → HasLayout abi structs (.named n) s a
  | rust {d n f s a s' a'} : d ∈ structs → d.name = n → d.repr = .rust → d.fields = [f] → HasLayout abi structs f s a →
      s ≤ s' → a ∣ a' → a' ∣ s' → HasLayout abi structs (.named n) s' a'

/-- The integers of the language; `bool` and `char` do not occur in the crate's structs, and a vector register has no equality at all. -/
def integers : List String := ["u8", "u16", "u32", "u64", "u128", "usize", "i8", "i16", "i32", "i64", "i128", "isize"]

/-- A constant of the type may stand as a pattern in a `match`: for an integer; for a struct if its `PartialEq` is the derived one and every field is of such a
type; for an array if its elements are. `ds` are the declarations that are compiled. -/
inductive AsPattern (ds : List Struct) : Ty → Prop
  | prim {p} : p ∈ integers → AsPattern ds (.prim p)
  | array {t n} : AsPattern ds t → AsPattern ds (.array t n)
  | struct {d n} : d ∈ ds → d.name = n → "PartialEq" ∈ d.derives → (∀ f ∈ d.fields, AsPattern ds f) → AsPattern ds (.named n)
end RustTypes
