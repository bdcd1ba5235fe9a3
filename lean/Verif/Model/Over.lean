import Verif.Model.Client
/-
The crate over any `AesBlock` module: src/lib.rs with `aesdefault_x2` and `aesdefault_x4`. This is what a new entry in the
ladder of src/lib.rs:44-92 gets (src/lib.rs:94-121 then select the default wide modules).
-/
namespace Aes.Over
open Rust Target Client Fmt

/-- `AesBlockX2` (src/lib.rs:102-105, src/aesdefault_x2.rs:5-8). -/
abbrev X2 (B : Type) := DefaultX2.X2 B
/-- `AesBlockX4` (src/lib.rs:117-120, src/aesdefault_x4.rs:5-8). -/
abbrev X4 (B : Type) := DefaultX4.X4 (DefaultX2.X2 B)

/-- The public block type of the given width. -/
def Vec (B : Type) : Width → Type
  | .x1 => B
  | .x2 => X2 B
  | .x4 => X4 B

variable (B : Type) [AesBlock B]

/-- Its operations. -/
instance (w : Width) : AesVec (Vec B w) w.size :=
  match w with
  | .x1 => inferInstanceAs (AesVec B 16)
  | .x2 => inferInstanceAs (AesVec (X2 B) 32)
  | .x4 => inferInstanceAs (AesVec (X4 B) 64)

variable {B}
/-- `encrypt_block`, `encrypt_2_blocks`, `encrypt_4_blocks` (src/lib.rs:467-485). -/
def encryptOf {nr : Nat} (e : AesEnc B nr) : (w : Width) → Vec B w → M (Vec B w)
  | .x1 => e.encrypt_block
  | .x2 => e.encrypt_2_blocks (X2 := X2 B)
  | .x4 => e.encrypt_4_blocks (X4 := X4 B)
/-- `decrypt_block`, `decrypt_2_blocks`, `decrypt_4_blocks` (src/lib.rs:497-515). -/
def decryptOf {nr : Nat} (d : AesDec B nr) : (w : Width) → Vec B w → M (Vec B w)
  | .x1 => d.decrypt_block
  | .x2 => d.decrypt_2_blocks (X2 := X2 B)
  | .x4 => d.decrypt_4_blocks (X4 := X4 B)

variable (B)
/-- The crate (src/lib.rs) with `B` as its `AesBlock`; as `Client.crate`. -/
def crate : Impl where
  V := Vec B
  E k := AesEnc B k.rounds
  D k := AesDec B k.rounds
  new _ := AesVec.new
  from_bytes _ := AesVec.from_bytes
  from_ref _ := Aes.from_ref
  try_from _ := Aes.try_from
  zero _ := AesVec.zero
  default_ _ := Aes.default_
  into_bytes _ := Aes.into_bytes
  store_to _ := AesVec.store_to
  is_zero _ := AesVec.is_zero
  eq _ := AesVec.eq
  bin _ := binOf
  assign _ := assignOf
  not _ := AesVec.not
  chain_enc _ := Aes.chain_enc
  chain_dec _ := Aes.chain_dec
  mc := AesBlock.mc (B := B)
  imc := AesBlock.imc (B := B)
  from_u128 := Aes.from_u128 (B := B)
  into_u128 := Aes.into_u128 (B := B)
  from_pair := AesBlockX2.from_pair (T := X2 B)
  to_pair := AesBlockX2.to_pair (T := X2 B)
  from_block2 := AesBlockX2.from_block (T := X2 B)
  from_quad := AesBlockX4.from_quad (T := X4 B)
  to_quad := AesBlockX4.to_quad (T := X4 B)
  from_x2_pair := AesBlockX4.from_x2_pair (T := X4 B)
  to_x2_pair := AesBlockX4.to_x2_pair (T := X4 B)
  from_block4 := AesBlockX4.from_block (T := X4 B)
  from_x2 := AesBlockX4.from_x2 (T := X4 B)
  format1 st o x := format (styleOf (B := B) st x o)
  format2 o x := format (debugX2 (X2 := X2 B) x o)
  format4 o x := format (debugX4 (X4 := X4 B) x o)
  encFrom := encFromOf B
  decFrom := decFromOf B
  decrypter _ e := AesEnc.decrypter e
  encrypter _ d := AesDec.encrypter d
  encrypt _ w e := encryptOf e w
  decrypt _ w d := decryptOf d w
  formatE _ o e := format (debugEnc e o)
  formatD _ o d := format (debugDec d o)

end Aes.Over
