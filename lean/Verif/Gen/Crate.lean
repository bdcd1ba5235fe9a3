import Verif.Gen.Table
import Verif.Gen.Bitslice
import Verif.Gen.X86
import Verif.Gen.Arm
import Verif.Gen.Riscv64
import Verif.Gen.Riscv32
import Verif.Gen.DefaultX2
import Verif.Gen.DefaultX4
import Verif.Gen.NiX2
import Verif.Gen.NiX4
import Verif.Gen.LibStd
import Verif.Gen.LibPre
import Verif.Gen.Ladders
import Verif.Model.Client
/-
The crate as its source text says: the public API (`Client.Impl`) with every field a function generated by tools/rust2lean.py
from /repo/src. Only this assembly is hand-written: which generated function is which public method, and which modules a
target uses (src/lib.rs:44-121; see Verif/Gen/Ladders.lean for the `cfg_if!` conditions).
-/
namespace RustSrc
open Rust Aes Aes.Client Aes.Fmt Aes.Target

/-- The compile-time facts on target `t` (the conditions of src/lib.rs:44-121). `e` is the endianness of a target that uses aes_table_based; the modules that need a
CPU extension exist on little-endian targets only. -/
@[reducible] def cfg (pf : Aes.Profile) (e : Endian) : Target → Cfg
  | .table => ⟨pf, e, false⟩
  | .bitslice e => ⟨pf, e, false⟩
  | .arm is32 => ⟨pf, .little, is32⟩
  | .x86 | .x86Vaes | .x86Vaes512 | .riscv64 | .riscv32 => ⟨pf, .little, false⟩

/-- The selected `AesBlock` module (src/lib.rs:44-92). -/
@[reducible] def block (pf : Aes.Profile) (e : Endian) (t : Target) : Aes.AesBlock t.Block :=
  match t with
  | .table => letI := cfg pf e .table; Table.block
  | .bitslice e' => letI := cfg pf e (.bitslice e'); Bitslice.block
  | .x86 => letI := cfg pf e .x86; X86.block
  | .x86Vaes => letI := cfg pf e .x86Vaes; X86.block
  | .x86Vaes512 => letI := cfg pf e .x86Vaes512; X86.block
  | .arm b => letI := cfg pf e (.arm b); Arm.block
  | .riscv64 => letI := cfg pf e .riscv64; Riscv64.block
  | .riscv32 => letI := cfg pf e .riscv32; Riscv32.block

/-- `pre_enc` and `pre_dec` of `AesBlock` (src/aes_arm.rs:107-110,123-126). -/
@[reducible] def armPre (pf : Aes.Profile) (e : Endian) (b : Bool) : HasPre (Target.arm b).Block :=
  letI := cfg pf e (.arm b)
  ⟨Arm.pre_enc, Arm.pre_dec⟩
/-- `pre_enc` and `pre_dec` of `AesBlock` (src/aes_riscv32.rs:125-128,147-150). -/
@[reducible] def riscv32Pre (pf : Aes.Profile) (e : Endian) : HasPre Target.riscv32.Block :=
  letI := cfg pf e .riscv32
  ⟨Riscv32.pre_enc, Riscv32.pre_dec⟩

/-- A module aesdefault_x2 with the methods that src/lib.rs:348-366 adds to it. -/
@[reducible] def withPre2 {B X2 : Type} [Cfg] [Aes.AesBlock B] [HasPre B] (v : Aes.AesBlockX2 B X2) : Aes.AesBlockX2 B X2 :=
  { v with pre := some ⟨Lib.Pre.AesBlockX2.pre_enc, Lib.Pre.AesBlockX2.pre_dec⟩ }
/-- A module aesdefault_x4 with the methods that src/lib.rs:348-366 adds to it. -/
@[reducible] def withPre4 {B X2 X4 : Type} [Cfg] [Aes.AesBlock B] [Aes.AesBlockX2 B X2] [HasPre B] (v : Aes.AesBlockX4 B X2 X4) :
    Aes.AesBlockX4 B X2 X4 :=
  { v with pre := some ⟨Lib.Pre.AesBlockX4.pre_enc, Lib.Pre.AesBlockX4.pre_dec⟩ }

/-- The selected `AesBlockX2` module (src/lib.rs:94-106). -/
@[reducible] def blockX2 (pf : Aes.Profile) (e : Endian) (t : Target) : Aes.AesBlockX2 t.Block t.X2 :=
  match t with
  | .table => @DefaultX2.vec (cfg pf e .table) _ (block pf e .table)
  | .bitslice e' => @DefaultX2.vec (cfg pf e (.bitslice e')) _ (block pf e (.bitslice e'))
  | .x86 => @DefaultX2.vec (cfg pf e .x86) _ (block pf e .x86)
  | .x86Vaes => letI := cfg pf e .x86Vaes; NiX2.vec
  | .x86Vaes512 => letI := cfg pf e .x86Vaes512; NiX2.vec
  | .arm b => @withPre2 _ _ (cfg pf e (.arm b)) (block pf e (.arm b)) (armPre pf e b)
      (@DefaultX2.vec (cfg pf e (.arm b)) _ (block pf e (.arm b)))
  | .riscv64 => @DefaultX2.vec (cfg pf e .riscv64) _ (block pf e .riscv64)
  | .riscv32 => @withPre2 _ _ (cfg pf e .riscv32) (block pf e .riscv32) (riscv32Pre pf e)
      (@DefaultX2.vec (cfg pf e .riscv32) _ (block pf e .riscv32))

/-- The selected `AesBlockX4` module (src/lib.rs:108-121). -/
@[reducible] def blockX4 (pf : Aes.Profile) (e : Endian) (t : Target) : Aes.AesBlockX4 t.Block t.X2 t.X4 :=
  match t with
  | .table => @DefaultX4.vec (cfg pf e .table) _ _ (blockX2 pf e .table)
  | .bitslice e' => @DefaultX4.vec (cfg pf e (.bitslice e')) _ _ (blockX2 pf e (.bitslice e'))
  | .x86 => @DefaultX4.vec (cfg pf e .x86) _ _ (blockX2 pf e .x86)
  | .x86Vaes => @DefaultX4.vec (cfg pf e .x86Vaes) _ _ (blockX2 pf e .x86Vaes)
  | .x86Vaes512 => letI := cfg pf e .x86Vaes512; NiX4.vec
  | .arm b => @withPre4 _ _ _ (cfg pf e (.arm b)) (block pf e (.arm b)) (blockX2 pf e (.arm b)) (armPre pf e b)
      (@DefaultX4.vec (cfg pf e (.arm b)) _ _ (blockX2 pf e (.arm b)))
  | .riscv64 => @DefaultX4.vec (cfg pf e .riscv64) _ _ (blockX2 pf e .riscv64)
  | .riscv32 => @withPre4 _ _ _ (cfg pf e .riscv32) (block pf e .riscv32) (blockX2 pf e .riscv32) (riscv32Pre pf e)
      (@DefaultX4.vec (cfg pf e .riscv32) _ _ (blockX2 pf e .riscv32))

/-- The public API of src/lib.rs over the given modules, on targets without `pre_enc` (src/lib.rs:393-424):
every field is a generated function. -/
def crateStd (t : Target) [Cfg] [b1 : Aes.AesBlock t.Block] [b2 : Aes.AesBlockX2 t.Block t.X2]
    [b4 : Aes.AesBlockX4 t.Block t.X2 t.X4] : Impl :=
  { V := t.Vec
    E := fun k => Aes.AesEnc t.Block k.rounds
    D := fun k => Aes.AesDec t.Block k.rounds
    new := fun
      | .x1 => b1.new
      | .x2 => b2.new
      | .x4 => b4.new
    from_bytes := fun
      | .x1 => b1.from_bytes
      | .x2 => b2.from_bytes
      | .x4 => b4.from_bytes
    from_ref := fun
      | .x1 => Lib.Std.AesBlock.from_ref (B := t.Block)
      | .x2 => Lib.Std.AesBlockX2.from_ref (X2 := t.X2)
      | .x4 => Lib.Std.AesBlockX4.from_ref (X4 := t.X4)
    try_from := fun
      | .x1 => Lib.Std.AesBlock.try_from (B := t.Block)
      | .x2 => Lib.Std.AesBlockX2.try_from (X2 := t.X2)
      | .x4 => Lib.Std.AesBlockX4.try_from (X4 := t.X4)
    zero := fun
      | .x1 => b1.zero
      | .x2 => b2.zero
      | .x4 => b4.zero
    default_ := fun
      | .x1 => Lib.Std.AesBlock.default_ (B := t.Block)
      | .x2 => Lib.Std.AesBlockX2.default_ (X2 := t.X2)
      | .x4 => Lib.Std.AesBlockX4.default_ (X4 := t.X4)
    into_bytes := fun
      | .x1 => Lib.Std.AesBlock.into_bytes (B := t.Block)
      | .x2 => Lib.Std.AesBlockX2.into_bytes (X2 := t.X2)
      | .x4 => Lib.Std.AesBlockX4.into_bytes (X4 := t.X4)
    store_to := fun
      | .x1 => b1.store_to
      | .x2 => b2.store_to
      | .x4 => b4.store_to
    is_zero := fun
      | .x1 => b1.is_zero
      | .x2 => b2.is_zero
      | .x4 => b4.is_zero
    eq := fun
      | .x1 => b1.eq
      | .x2 => b2.eq
      | .x4 => b4.eq
    bin := fun
      | .x1, .and => b1.bitand
      | .x1, .or => b1.bitor
      | .x1, .xor => b1.bitxor
      | .x1, .enc => b1.enc
      | .x1, .dec => b1.dec
      | .x1, .encLast => b1.enc_last
      | .x1, .decLast => b1.dec_last
      | .x2, .and => b2.bitand
      | .x2, .or => b2.bitor
      | .x2, .xor => b2.bitxor
      | .x2, .enc => b2.enc
      | .x2, .dec => b2.dec
      | .x2, .encLast => b2.enc_last
      | .x2, .decLast => b2.dec_last
      | .x4, .and => b4.bitand
      | .x4, .or => b4.bitor
      | .x4, .xor => b4.bitxor
      | .x4, .enc => b4.enc
      | .x4, .dec => b4.dec
      | .x4, .encLast => b4.enc_last
      | .x4, .decLast => b4.dec_last
    assign := fun
      | .x1, .and => Lib.Std.AesBlock.bitand_assign (B := t.Block)
      | .x1, .or => Lib.Std.AesBlock.bitor_assign (B := t.Block)
      | .x1, .xor => Lib.Std.AesBlock.bitxor_assign (B := t.Block)
      | .x2, .and => Lib.Std.AesBlockX2.bitand_assign (X2 := t.X2)
      | .x2, .or => Lib.Std.AesBlockX2.bitor_assign (X2 := t.X2)
      | .x2, .xor => Lib.Std.AesBlockX2.bitxor_assign (X2 := t.X2)
      | .x4, .and => Lib.Std.AesBlockX4.bitand_assign (X4 := t.X4)
      | .x4, .or => Lib.Std.AesBlockX4.bitor_assign (X4 := t.X4)
      | .x4, .xor => Lib.Std.AesBlockX4.bitxor_assign (X4 := t.X4)
    not := fun
      | .x1 => b1.not
      | .x2 => b2.not
      | .x4 => b4.not
    chain_enc := fun
      | .x1 => Lib.Std.AesBlock.chain_enc (B := t.Block)
      | .x2 => Lib.Std.AesBlockX2.chain_enc (X2 := t.X2)
      | .x4 => Lib.Std.AesBlockX4.chain_enc (X4 := t.X4)
    chain_dec := fun
      | .x1 => Lib.Std.AesBlock.chain_dec (B := t.Block)
      | .x2 => Lib.Std.AesBlockX2.chain_dec (X2 := t.X2)
      | .x4 => Lib.Std.AesBlockX4.chain_dec (X4 := t.X4)
    mc := b1.mc
    imc := b1.imc
    from_u128 := Lib.Std.AesBlock.from_u128 (B := t.Block)
    into_u128 := Lib.Std.AesBlock.into_u128 (B := t.Block)
    from_pair := b2.from_pair
    to_pair := b2.to_pair
    from_block2 := b2.from_block
    from_quad := b4.from_quad
    to_quad := b4.to_quad
    from_x2_pair := b4.from_x2_pair
    to_x2_pair := b4.to_x2_pair
    from_block4 := b4.from_block
    from_x2 := b4.from_x2
    format1 := fun
      | .display, o, x => format (Lib.Std.AesBlock.Display.fmt (B := t.Block) x o)
      | .debug, o, x => format (Lib.Std.AesBlock.Debug.fmt (B := t.Block) x o)
      | .lowerHex, o, x => format (Lib.Std.AesBlock.LowerHex.fmt (B := t.Block) x o)
      | .upperHex, o, x => format (Lib.Std.AesBlock.UpperHex.fmt (B := t.Block) x o)
      | .binary, o, x => format (Lib.Std.AesBlock.Binary.fmt (B := t.Block) x o)
    format2 := fun o x => format (Lib.Std.AesBlockX2.Debug.fmt (X2 := t.X2) x o)
    format4 := fun o x => format (Lib.Std.AesBlockX4.Debug.fmt (X4 := t.X4) x o)
    encFrom := fun
      | .k128 => Lib.Std.Aes128Enc.from (B := t.Block)
      | .k192 => Lib.Std.Aes192Enc.from (B := t.Block)
      | .k256 => Lib.Std.Aes256Enc.from (B := t.Block)
    decFrom := fun
      | .k128 => Lib.Std.Aes128Dec.from (B := t.Block)
      | .k192 => Lib.Std.Aes192Dec.from (B := t.Block)
      | .k256 => Lib.Std.Aes256Dec.from (B := t.Block)
    decrypter := fun
      | .k128 => Lib.Std.Aes128Enc.decrypter (B := t.Block)
      | .k192 => Lib.Std.Aes192Enc.decrypter (B := t.Block)
      | .k256 => Lib.Std.Aes256Enc.decrypter (B := t.Block)
    encrypter := fun
      | .k128 => Lib.Std.Aes128Dec.encrypter (B := t.Block)
      | .k192 => Lib.Std.Aes192Dec.encrypter (B := t.Block)
      | .k256 => Lib.Std.Aes256Dec.encrypter (B := t.Block)
    encrypt := fun
      | .k128, .x1 => Lib.Std.Aes128Enc.encrypt_block (B := t.Block)
      | .k128, .x2 => Lib.Std.Aes128Enc.encrypt_2_blocks (X2 := t.X2)
      | .k128, .x4 => Lib.Std.Aes128Enc.encrypt_4_blocks (X4 := t.X4)
      | .k192, .x1 => Lib.Std.Aes192Enc.encrypt_block (B := t.Block)
      | .k192, .x2 => Lib.Std.Aes192Enc.encrypt_2_blocks (X2 := t.X2)
      | .k192, .x4 => Lib.Std.Aes192Enc.encrypt_4_blocks (X4 := t.X4)
      | .k256, .x1 => Lib.Std.Aes256Enc.encrypt_block (B := t.Block)
      | .k256, .x2 => Lib.Std.Aes256Enc.encrypt_2_blocks (X2 := t.X2)
      | .k256, .x4 => Lib.Std.Aes256Enc.encrypt_4_blocks (X4 := t.X4)
    decrypt := fun
      | .k128, .x1 => Lib.Std.Aes128Dec.decrypt_block (B := t.Block)
      | .k128, .x2 => Lib.Std.Aes128Dec.decrypt_2_blocks (X2 := t.X2)
      | .k128, .x4 => Lib.Std.Aes128Dec.decrypt_4_blocks (X4 := t.X4)
      | .k192, .x1 => Lib.Std.Aes192Dec.decrypt_block (B := t.Block)
      | .k192, .x2 => Lib.Std.Aes192Dec.decrypt_2_blocks (X2 := t.X2)
      | .k192, .x4 => Lib.Std.Aes192Dec.decrypt_4_blocks (X4 := t.X4)
      | .k256, .x1 => Lib.Std.Aes256Dec.decrypt_block (B := t.Block)
      | .k256, .x2 => Lib.Std.Aes256Dec.decrypt_2_blocks (X2 := t.X2)
      | .k256, .x4 => Lib.Std.Aes256Dec.decrypt_4_blocks (X4 := t.X4)
    formatE := fun
      | .k128, o, e => format (Lib.Std.Aes128Enc.Debug.fmt (B := t.Block) e o)
      | .k192, o, e => format (Lib.Std.Aes192Enc.Debug.fmt (B := t.Block) e o)
      | .k256, o, e => format (Lib.Std.Aes256Enc.Debug.fmt (B := t.Block) e o)
    formatD := fun
      | .k128, o, e => format (Lib.Std.Aes128Dec.Debug.fmt (B := t.Block) e o)
      | .k192, o, e => format (Lib.Std.Aes192Dec.Debug.fmt (B := t.Block) e o)
      | .k256, o, e => format (Lib.Std.Aes256Dec.Debug.fmt (B := t.Block) e o) }

/-- The public API of src/lib.rs over the given modules, on targets with `pre_enc` (src/lib.rs:348-392):
every field is a generated function. -/
def cratePre (t : Target) [Cfg] [b1 : Aes.AesBlock t.Block] [b2 : Aes.AesBlockX2 t.Block t.X2]
    [b4 : Aes.AesBlockX4 t.Block t.X2 t.X4] [HasPre t.Block] : Impl :=
  { V := t.Vec
    E := fun k => Aes.AesEnc t.Block k.rounds
    D := fun k => Aes.AesDec t.Block k.rounds
    new := fun
      | .x1 => b1.new
      | .x2 => b2.new
      | .x4 => b4.new
    from_bytes := fun
      | .x1 => b1.from_bytes
      | .x2 => b2.from_bytes
      | .x4 => b4.from_bytes
    from_ref := fun
      | .x1 => Lib.Pre.AesBlock.from_ref (B := t.Block)
      | .x2 => Lib.Pre.AesBlockX2.from_ref (X2 := t.X2)
      | .x4 => Lib.Pre.AesBlockX4.from_ref (X4 := t.X4)
    try_from := fun
      | .x1 => Lib.Pre.AesBlock.try_from (B := t.Block)
      | .x2 => Lib.Pre.AesBlockX2.try_from (X2 := t.X2)
      | .x4 => Lib.Pre.AesBlockX4.try_from (X4 := t.X4)
    zero := fun
      | .x1 => b1.zero
      | .x2 => b2.zero
      | .x4 => b4.zero
    default_ := fun
      | .x1 => Lib.Pre.AesBlock.default_ (B := t.Block)
      | .x2 => Lib.Pre.AesBlockX2.default_ (X2 := t.X2)
      | .x4 => Lib.Pre.AesBlockX4.default_ (X4 := t.X4)
    into_bytes := fun
      | .x1 => Lib.Pre.AesBlock.into_bytes (B := t.Block)
      | .x2 => Lib.Pre.AesBlockX2.into_bytes (X2 := t.X2)
      | .x4 => Lib.Pre.AesBlockX4.into_bytes (X4 := t.X4)
    store_to := fun
      | .x1 => b1.store_to
      | .x2 => b2.store_to
      | .x4 => b4.store_to
    is_zero := fun
      | .x1 => b1.is_zero
      | .x2 => b2.is_zero
      | .x4 => b4.is_zero
    eq := fun
      | .x1 => b1.eq
      | .x2 => b2.eq
      | .x4 => b4.eq
    bin := fun
      | .x1, .and => b1.bitand
      | .x1, .or => b1.bitor
      | .x1, .xor => b1.bitxor
      | .x1, .enc => b1.enc
      | .x1, .dec => b1.dec
      | .x1, .encLast => b1.enc_last
      | .x1, .decLast => b1.dec_last
      | .x2, .and => b2.bitand
      | .x2, .or => b2.bitor
      | .x2, .xor => b2.bitxor
      | .x2, .enc => b2.enc
      | .x2, .dec => b2.dec
      | .x2, .encLast => b2.enc_last
      | .x2, .decLast => b2.dec_last
      | .x4, .and => b4.bitand
      | .x4, .or => b4.bitor
      | .x4, .xor => b4.bitxor
      | .x4, .enc => b4.enc
      | .x4, .dec => b4.dec
      | .x4, .encLast => b4.enc_last
      | .x4, .decLast => b4.dec_last
    assign := fun
      | .x1, .and => Lib.Pre.AesBlock.bitand_assign (B := t.Block)
      | .x1, .or => Lib.Pre.AesBlock.bitor_assign (B := t.Block)
      | .x1, .xor => Lib.Pre.AesBlock.bitxor_assign (B := t.Block)
      | .x2, .and => Lib.Pre.AesBlockX2.bitand_assign (X2 := t.X2)
      | .x2, .or => Lib.Pre.AesBlockX2.bitor_assign (X2 := t.X2)
      | .x2, .xor => Lib.Pre.AesBlockX2.bitxor_assign (X2 := t.X2)
      | .x4, .and => Lib.Pre.AesBlockX4.bitand_assign (X4 := t.X4)
      | .x4, .or => Lib.Pre.AesBlockX4.bitor_assign (X4 := t.X4)
      | .x4, .xor => Lib.Pre.AesBlockX4.bitxor_assign (X4 := t.X4)
    not := fun
      | .x1 => b1.not
      | .x2 => b2.not
      | .x4 => b4.not
    chain_enc := fun
      | .x1 => Lib.Pre.AesBlock.chain_enc (B := t.Block)
      | .x2 => Lib.Pre.AesBlockX2.chain_enc (X2 := t.X2)
      | .x4 => Lib.Pre.AesBlockX4.chain_enc (X4 := t.X4)
    chain_dec := fun
      | .x1 => Lib.Pre.AesBlock.chain_dec (B := t.Block)
      | .x2 => Lib.Pre.AesBlockX2.chain_dec (X2 := t.X2)
      | .x4 => Lib.Pre.AesBlockX4.chain_dec (X4 := t.X4)
    mc := b1.mc
    imc := b1.imc
    from_u128 := Lib.Pre.AesBlock.from_u128 (B := t.Block)
    into_u128 := Lib.Pre.AesBlock.into_u128 (B := t.Block)
    from_pair := b2.from_pair
    to_pair := b2.to_pair
    from_block2 := b2.from_block
    from_quad := b4.from_quad
    to_quad := b4.to_quad
    from_x2_pair := b4.from_x2_pair
    to_x2_pair := b4.to_x2_pair
    from_block4 := b4.from_block
    from_x2 := b4.from_x2
    format1 := fun
      | .display, o, x => format (Lib.Pre.AesBlock.Display.fmt (B := t.Block) x o)
      | .debug, o, x => format (Lib.Pre.AesBlock.Debug.fmt (B := t.Block) x o)
      | .lowerHex, o, x => format (Lib.Pre.AesBlock.LowerHex.fmt (B := t.Block) x o)
      | .upperHex, o, x => format (Lib.Pre.AesBlock.UpperHex.fmt (B := t.Block) x o)
      | .binary, o, x => format (Lib.Pre.AesBlock.Binary.fmt (B := t.Block) x o)
    format2 := fun o x => format (Lib.Pre.AesBlockX2.Debug.fmt (X2 := t.X2) x o)
    format4 := fun o x => format (Lib.Pre.AesBlockX4.Debug.fmt (X4 := t.X4) x o)
    encFrom := fun
      | .k128 => Lib.Pre.Aes128Enc.from (B := t.Block)
      | .k192 => Lib.Pre.Aes192Enc.from (B := t.Block)
      | .k256 => Lib.Pre.Aes256Enc.from (B := t.Block)
    decFrom := fun
      | .k128 => Lib.Pre.Aes128Dec.from (B := t.Block)
      | .k192 => Lib.Pre.Aes192Dec.from (B := t.Block)
      | .k256 => Lib.Pre.Aes256Dec.from (B := t.Block)
    decrypter := fun
      | .k128 => Lib.Pre.Aes128Enc.decrypter (B := t.Block)
      | .k192 => Lib.Pre.Aes192Enc.decrypter (B := t.Block)
      | .k256 => Lib.Pre.Aes256Enc.decrypter (B := t.Block)
    encrypter := fun
      | .k128 => Lib.Pre.Aes128Dec.encrypter (B := t.Block)
      | .k192 => Lib.Pre.Aes192Dec.encrypter (B := t.Block)
      | .k256 => Lib.Pre.Aes256Dec.encrypter (B := t.Block)
    encrypt := fun
      | .k128, .x1 => Lib.Pre.Aes128Enc.encrypt_block (B := t.Block)
      | .k128, .x2 => Lib.Pre.Aes128Enc.encrypt_2_blocks (X2 := t.X2)
      | .k128, .x4 => Lib.Pre.Aes128Enc.encrypt_4_blocks (X4 := t.X4)
      | .k192, .x1 => Lib.Pre.Aes192Enc.encrypt_block (B := t.Block)
      | .k192, .x2 => Lib.Pre.Aes192Enc.encrypt_2_blocks (X2 := t.X2)
      | .k192, .x4 => Lib.Pre.Aes192Enc.encrypt_4_blocks (X4 := t.X4)
      | .k256, .x1 => Lib.Pre.Aes256Enc.encrypt_block (B := t.Block)
      | .k256, .x2 => Lib.Pre.Aes256Enc.encrypt_2_blocks (X2 := t.X2)
      | .k256, .x4 => Lib.Pre.Aes256Enc.encrypt_4_blocks (X4 := t.X4)
    decrypt := fun
      | .k128, .x1 => Lib.Pre.Aes128Dec.decrypt_block (B := t.Block)
      | .k128, .x2 => Lib.Pre.Aes128Dec.decrypt_2_blocks (X2 := t.X2)
      | .k128, .x4 => Lib.Pre.Aes128Dec.decrypt_4_blocks (X4 := t.X4)
      | .k192, .x1 => Lib.Pre.Aes192Dec.decrypt_block (B := t.Block)
      | .k192, .x2 => Lib.Pre.Aes192Dec.decrypt_2_blocks (X2 := t.X2)
      | .k192, .x4 => Lib.Pre.Aes192Dec.decrypt_4_blocks (X4 := t.X4)
      | .k256, .x1 => Lib.Pre.Aes256Dec.decrypt_block (B := t.Block)
      | .k256, .x2 => Lib.Pre.Aes256Dec.decrypt_2_blocks (X2 := t.X2)
      | .k256, .x4 => Lib.Pre.Aes256Dec.decrypt_4_blocks (X4 := t.X4)
    formatE := fun
      | .k128, o, e => format (Lib.Pre.Aes128Enc.Debug.fmt (B := t.Block) e o)
      | .k192, o, e => format (Lib.Pre.Aes192Enc.Debug.fmt (B := t.Block) e o)
      | .k256, o, e => format (Lib.Pre.Aes256Enc.Debug.fmt (B := t.Block) e o)
    formatD := fun
      | .k128, o, e => format (Lib.Pre.Aes128Dec.Debug.fmt (B := t.Block) e o)
      | .k192, o, e => format (Lib.Pre.Aes192Dec.Debug.fmt (B := t.Block) e o)
      | .k256, o, e => format (Lib.Pre.Aes256Dec.Debug.fmt (B := t.Block) e o) }

/-- The crate (src/lib.rs) on target `t`, built with the given profile, from the generated functions. -/
def crate (pf : Aes.Profile) (e : Endian) (t : Target) : Impl :=
  match t with
  | .arm b => @cratePre (.arm b) (cfg pf e (.arm b)) (block pf e (.arm b)) (blockX2 pf e (.arm b)) (blockX4 pf e (.arm b))
      (armPre pf e b)
  | .riscv32 => @cratePre .riscv32 (cfg pf e .riscv32) (block pf e .riscv32) (blockX2 pf e .riscv32) (blockX4 pf e .riscv32)
      (riscv32Pre pf e)
  | t => @crateStd t (cfg pf e t) (block pf e t) (blockX2 pf e t) (blockX4 pf e t)

/-- The target that a configuration selects: the modules and the branch of src/lib.rs:333-424 that its `cfg_if!`s pick
(Verif/Gen/Ladders.lean). `none` where the picked modules refer to names that do not exist: aesni_x2 and aesni_x4 need aes_x86,
aesni_x4 needs aesni_x2 (src/aesni_x2.rs:7, src/aesni_x4.rs:7-8), and branch 0 needs `AesBlock::pre_enc` and `pre_dec`. -/
def selected (c : Aes.Config.Cfg) : Option Target :=
  match Ladders.AesBlock c, Ladders.AesBlockX2 c, Ladders.AesBlockX4 c, Ladders.chain c with
  | .aes_x86, .aesdefault_x2, .aesdefault_x4, 1 => some .x86
  | .aes_x86, .aesni_x2, .aesdefault_x4, 1 => some .x86Vaes
  | .aes_x86, .aesni_x2, .aesni_x4, 1 => some .x86Vaes512
  | .aes_arm, .aesdefault_x2, .aesdefault_x4, 0 => some (.arm (c.arch == .arm))
  | .aes_riscv64, .aesdefault_x2, .aesdefault_x4, 1 => some .riscv64
  | .aes_riscv32, .aesdefault_x2, .aesdefault_x4, 0 => some .riscv32
  | .aes_bitslice, .aesdefault_x2, .aesdefault_x4, 1 => some (.bitslice c.endian)
  | .aes_table_based, .aesdefault_x2, .aesdefault_x4, 1 => some .table
  | _, _, _, _ => none

/-- The crate that rustc compiles in a configuration (src/lib.rs:44-121), from the generated functions. -/
def compiled (pf : Aes.Profile) (c : Aes.Config.Cfg) : Option Impl := (selected c).map (crate pf c.endian)

end RustSrc
