import Verif.Gen.Crate
import Verif.Gen.LeakTable
import Verif.Gen.LeakBitslice
import Verif.Gen.LeakX86
import Verif.Gen.LeakArm
import Verif.Gen.LeakRiscv64
import Verif.Gen.LeakRiscv32
import Verif.Gen.LeakDefaultX2
import Verif.Gen.LeakDefaultX4
import Verif.Gen.LeakNiX2
import Verif.Gen.LeakNiX4
import Verif.Gen.LeakLibStd
import Verif.Gen.LeakLibPre
import Verif.Model.LeakClient
/-
The crate with the trace of every call, put together from the functions that tools/rust2lean.py printed from the source
text (Verif/Gen/Leak*.lean). Hand-written: it only says which module is `AesBlock`, `AesBlockX2` and `AesBlockX4` on each target
(src/lib.rs:44-121), which branch of src/lib.rs:333-426 is compiled, and which function each call of a client runs.
-/
namespace RustSrc.Leak
open Rust Aes Aes.Client Aes.Leak Aes.Target

/-- The calls of the public API that are covered, with their traces: what Verif/Model/Client.lean calls an `Impl`, for an
observer. Conversions between the block types (which only move data) and formatting are left out. -/
structure LApi (V : Width → Type) (E D : KeySize → Type) where
  new : (w : Width) → Vector U8 w.size → L (V w)
  from_bytes : (w : Width) → Vector U8 w.size → L (V w)
  from_ref : (w : Width) → Vector U8 w.size → L (V w)
  try_from : (w : Width) → List U8 → L (Except Nat (V w))
  zero : (w : Width) → L (V w)
  default_ : (w : Width) → L (V w)
  into_bytes : (w : Width) → V w → L (Vector U8 w.size)
  store_to : (w : Width) → V w → List U8 → L (List U8)
  is_zero : (w : Width) → V w → L Bool
  eq : (w : Width) → V w → V w → L Bool
  bin : (w : Width) → BinOp → V w → V w → L (V w)
  assign : (w : Width) → AssignOp → V w → V w → L (V w)
  not : (w : Width) → V w → L (V w)
  chain_enc : (w : Width) → V w → List (V w) → L (V w)
  chain_dec : (w : Width) → V w → List (V w) → L (V w)
  mc : V .x1 → L (V .x1)
  imc : V .x1 → L (V .x1)
  from_u128 : U128 → L (V .x1)
  into_u128 : V .x1 → L U128
  encFrom : (k : KeySize) → Vector U8 k.bytes → L (E k)
  decFrom : (k : KeySize) → Vector U8 k.bytes → L (D k)
  decrypter : (k : KeySize) → E k → L (D k)
  encrypter : (k : KeySize) → D k → L (E k)
  encrypt : (k : KeySize) → (w : Width) → E k → V w → L (V w)
  decrypt : (k : KeySize) → (w : Width) → D k → V w → L (V w)

/-- One call, with its trace: `Aes.Leak.step` over any crate. -/
def stepWith (I : Impl) (A : LApi I.V I.E I.D) (s : Store I) : Call → L (Obs × Store I)
  | .clone i => pure (Client.step I s (.clone i))
  | .new w b => retM s (A.new w b) fun x => [.vec w x]
  | .from_bytes w b => retM s (A.from_bytes w b) fun x => [.vec w x]
  | .from_ref w b => retM s (A.from_ref w b) fun x => [.vec w x]
  | .try_from w b => retTry (w := w) s (A.try_from w b)
  | .zero w => retM s (A.zero w) fun x => [.vec w x]
  | .default_ w => retM s (A.default_ w) fun x => [.vec w x]
  | .into_bytes w i => need s (s.vec? w i) fun x => seeM s (A.into_bytes w x) fun b => .bytes b.toList
  | .store_to w i dst => need s (s.vec? w i) fun x => seeM s (A.store_to w x dst) fun b => .bytes b
  | .is_zero w i => need s (s.vec? w i) fun x => seeM s (A.is_zero w x) .bool
  | .eq w i j => need s (s.vec? w i) fun x => need s (s.vec? w j) fun y => seeM s (A.eq w x y) .bool
  | .bin w op i j => need s (s.vec? w i) fun x => need s (s.vec? w j) fun y => retM s (A.bin w op x y) fun z => [.vec w z]
  | .assign w op i j => need s (s.vec? w i) fun x => need s (s.vec? w j) fun y => setM s i (A.assign w op x y) fun z => .vec w z
  | .not w i => need s (s.vec? w i) fun x => retM s (A.not w x) fun z => [.vec w z]
  | .chain_enc w i keys => need s (s.vec? w i) fun x => need s (s.vecs? w keys) fun ks =>
      retM s (A.chain_enc w x ks) fun y => [.vec w y]
  | .chain_dec w i keys => need s (s.vec? w i) fun x => need s (s.vecs? w keys) fun ks =>
      retM s (A.chain_dec w x ks) fun y => [.vec w y]
  | .mc i => need s (s.vec? .x1 i) fun x => retM s (A.mc x) fun y => [.vec .x1 y]
  | .imc i => need s (s.vec? .x1 i) fun x => retM s (A.imc x) fun y => [.vec .x1 y]
  | .from_u128 n => retM s (A.from_u128 n) fun x => [.vec .x1 x]
  | .into_u128 i => need s (s.vec? .x1 i) fun x => seeM s (A.into_u128 x) fun n => .num n
  | .from_pair i j => pure (Client.step I s (.from_pair i j))
  | .to_pair i => pure (Client.step I s (.to_pair i))
  | .from_block2 i => pure (Client.step I s (.from_block2 i))
  | .from_quad i j k l => pure (Client.step I s (.from_quad i j k l))
  | .to_quad i => pure (Client.step I s (.to_quad i))
  | .from_x2_pair i j => pure (Client.step I s (.from_x2_pair i j))
  | .to_x2_pair i => pure (Client.step I s (.to_x2_pair i))
  | .from_block4 i => pure (Client.step I s (.from_block4 i))
  | .from_x2 i => pure (Client.step I s (.from_x2 i))
  | .format1 st o i => pure (Client.step I s (.format1 st o i))
  | .format2 o i => pure (Client.step I s (.format2 o i))
  | .format4 o i => pure (Client.step I s (.format4 o i))
  | .encFrom k key => retM s (A.encFrom k key) fun e => [.enc k e]
  | .decFrom k key => retM s (A.decFrom k key) fun d => [.dec k d]
  | .decrypter k i => need s (s.enc? k i) fun e => retM s (A.decrypter k e) fun d => [.dec k d]
  | .encrypter k i => need s (s.dec? k i) fun d => retM s (A.encrypter k d) fun e => [.enc k e]
  | .encrypt k w e i => need s (s.enc? k e) fun e => need s (s.vec? w i) fun x =>
      retM s (A.encrypt k w e x) fun y => [.vec w y]
  | .decrypt k w d i => need s (s.dec? k d) fun d => need s (s.vec? w i) fun x =>
      retM s (A.decrypt k w d x) fun y => [.vec w y]
  | .formatE k o i => pure (Client.step I s (.formatE k o i))
  | .formatD k o i => pure (Client.step I s (.formatD k o i))

/-- The first `n` steps of a client, with their trace: `Aes.Leak.run` over any crate. -/
def runWith (I : Impl) (A : LApi I.V I.E I.D) (client : Client) : Nat → L (List Obs × Store I)
  | 0 => pure ([], [])
  | n + 1 => do
    let r ← runWith I A client n
    match client r.1 with
    | none => pure r
    | some c => do
      let q ← stepWith I A r.2 c
      pure (r.1 ++ [q.1], q.2)

/-! ### The modules of a target (src/lib.rs:44-121) -/

/-- The selected `AesBlock` module (src/lib.rs:44-92). -/
@[reducible] def block (pf : Aes.Profile) (e : Endian) (t : Target) : LBlock t.Block :=
  match t with
  | .table => letI := cfg pf e .table; Table.block
  | .bitslice e' => letI := cfg pf e (.bitslice e'); Bitslice.block
  | .x86 => letI := cfg pf e .x86; X86.block
  | .x86Vaes => letI := cfg pf e .x86Vaes; X86.block
  | .x86Vaes512 => letI := cfg pf e .x86Vaes512; X86.block
  | .arm b => letI := cfg pf e (.arm b); Arm.block
  | .riscv64 => letI := cfg pf e .riscv64; Riscv64.block
  | .riscv32 => letI := cfg pf e .riscv32; Riscv32.block

/-- `pre_enc` and `pre_dec` of `AesBlock` (src/aes_arm.rs:107-110,123-126). -/
@[reducible] def armPre (pf : Aes.Profile) (e : Endian) (b : Bool) : LHasPre (Target.arm b).Block :=
  letI := cfg pf e (.arm b)
  ⟨Arm.pre_enc, Arm.pre_dec⟩
/-- `pre_enc` and `pre_dec` of `AesBlock` (src/aes_riscv32.rs:125-128,147-150). -/
@[reducible] def riscv32Pre (pf : Aes.Profile) (e : Endian) : LHasPre Target.riscv32.Block :=
  letI := cfg pf e .riscv32
  ⟨Riscv32.pre_enc, Riscv32.pre_dec⟩

/-- A module aesdefault_x2 with the methods that src/lib.rs:348-366 adds to it. -/
@[reducible] def withPre2 {B X2 : Type} [Cfg] [Aes.AesBlock B] [Aes.AesBlockX2 B X2] [LHasPre B] (v : LVec X2 32) : LVec X2 32 :=
  { v with pre := some ⟨Lib.Pre.AesBlockX2.pre_enc (B := B), Lib.Pre.AesBlockX2.pre_dec (B := B)⟩ }
/-- A module aesdefault_x4 with the methods that src/lib.rs:348-366 adds to it. -/
@[reducible] def withPre4 {B X2 X4 : Type} [Cfg] [Aes.AesBlock B] [Aes.AesBlockX2 B X2] [Aes.AesBlockX4 B X2 X4] [LHasPre B]
    (v : LVec X4 64) : LVec X4 64 :=
  { v with pre := some ⟨Lib.Pre.AesBlockX4.pre_enc (B := B) (X2 := X2), Lib.Pre.AesBlockX4.pre_dec (B := B) (X2 := X2)⟩ }

/-- The selected `AesBlockX2` module (src/lib.rs:94-106). -/
@[reducible] def blockX2 (pf : Aes.Profile) (e : Endian) (t : Target) : LVec t.X2 32 :=
  match t with
  | .table => @DefaultX2.vec (cfg pf e .table) _ (block pf e .table)
  | .bitslice e' => @DefaultX2.vec (cfg pf e (.bitslice e')) _ (block pf e (.bitslice e'))
  | .x86 => @DefaultX2.vec (cfg pf e .x86) _ (block pf e .x86)
  | .x86Vaes => letI := cfg pf e .x86Vaes; NiX2.vec
  | .x86Vaes512 => letI := cfg pf e .x86Vaes512; NiX2.vec
  | .arm b => @withPre2 _ _ (cfg pf e (.arm b)) (RustSrc.block pf e (.arm b)) (RustSrc.blockX2 pf e (.arm b)) (armPre pf e b)
      (@DefaultX2.vec (cfg pf e (.arm b)) _ (block pf e (.arm b)))
  | .riscv64 => @DefaultX2.vec (cfg pf e .riscv64) _ (block pf e .riscv64)
  | .riscv32 => @withPre2 _ _ (cfg pf e .riscv32) (RustSrc.block pf e .riscv32) (RustSrc.blockX2 pf e .riscv32) (riscv32Pre pf e)
      (@DefaultX2.vec (cfg pf e .riscv32) _ (block pf e .riscv32))

/-- The selected `AesBlockX4` module (src/lib.rs:108-121). -/
@[reducible] def blockX4 (pf : Aes.Profile) (e : Endian) (t : Target) : LVec t.X4 64 :=
  match t with
  | .table => @DefaultX4.vec (cfg pf e .table) _ (blockX2 pf e .table)
  | .bitslice e' => @DefaultX4.vec (cfg pf e (.bitslice e')) _ (blockX2 pf e (.bitslice e'))
  | .x86 => @DefaultX4.vec (cfg pf e .x86) _ (blockX2 pf e .x86)
  | .x86Vaes => @DefaultX4.vec (cfg pf e .x86Vaes) _ (blockX2 pf e .x86Vaes)
  | .x86Vaes512 => letI := cfg pf e .x86Vaes512; NiX4.vec
  | .arm b => @withPre4 _ _ _ (cfg pf e (.arm b)) (RustSrc.block pf e (.arm b)) (RustSrc.blockX2 pf e (.arm b))
      (RustSrc.blockX4 pf e (.arm b)) (armPre pf e b) (@DefaultX4.vec (cfg pf e (.arm b)) _ (blockX2 pf e (.arm b)))
  | .riscv64 => @DefaultX4.vec (cfg pf e .riscv64) _ (blockX2 pf e .riscv64)
  | .riscv32 => @withPre4 _ _ _ (cfg pf e .riscv32) (RustSrc.block pf e .riscv32) (RustSrc.blockX2 pf e .riscv32)
      (RustSrc.blockX4 pf e .riscv32) (riscv32Pre pf e) (@DefaultX4.vec (cfg pf e .riscv32) _ (blockX2 pf e .riscv32))

/-- The calls of the public API, on targets without `pre_enc` (src/lib.rs:393-424). -/
def apiStd (t : Target) [Cfg] [Aes.AesBlock t.Block] [Aes.AesBlockX2 t.Block t.X2]
    [Aes.AesBlockX4 t.Block t.X2 t.X4] [l1 : LBlock t.Block] [l2 : LVec t.X2 32] [l4 : LVec t.X4 64] :
    LApi t.Vec (fun k => Aes.AesEnc t.Block k.rounds) (fun k => Aes.AesDec t.Block k.rounds) :=
  { new := fun
      | .x1 => l1.new
      | .x2 => l2.new
      | .x4 => l4.new
    from_bytes := fun
      | .x1 => l1.from_bytes
      | .x2 => l2.from_bytes
      | .x4 => l4.from_bytes
    from_ref := fun
      | .x1 => Lib.Std.AesBlock.from_ref (B := t.Block)
      | .x2 => Lib.Std.AesBlockX2.from_ref (X2 := t.X2)
      | .x4 => Lib.Std.AesBlockX4.from_ref (X4 := t.X4)
    try_from := fun
      | .x1 => Lib.Std.AesBlock.try_from (B := t.Block)
      | .x2 => Lib.Std.AesBlockX2.try_from (X2 := t.X2)
      | .x4 => Lib.Std.AesBlockX4.try_from (X4 := t.X4)
    zero := fun
      | .x1 => l1.zero
      | .x2 => l2.zero
      | .x4 => l4.zero
    default_ := fun
      | .x1 => Lib.Std.AesBlock.default_ (B := t.Block)
      | .x2 => Lib.Std.AesBlockX2.default_ (X2 := t.X2)
      | .x4 => Lib.Std.AesBlockX4.default_ (X4 := t.X4)
    into_bytes := fun
      | .x1 => Lib.Std.AesBlock.into_bytes (B := t.Block)
      | .x2 => Lib.Std.AesBlockX2.into_bytes (X2 := t.X2)
      | .x4 => Lib.Std.AesBlockX4.into_bytes (X4 := t.X4)
    store_to := fun
      | .x1 => l1.store_to
      | .x2 => l2.store_to
      | .x4 => l4.store_to
    is_zero := fun
      | .x1 => l1.is_zero
      | .x2 => l2.is_zero
      | .x4 => l4.is_zero
    eq := fun
      | .x1 => l1.eq
      | .x2 => l2.eq
      | .x4 => l4.eq
    bin := fun
      | .x1, .and => l1.bitand
      | .x1, .or => l1.bitor
      | .x1, .xor => l1.bitxor
      | .x1, .enc => l1.enc
      | .x1, .dec => l1.dec
      | .x1, .encLast => l1.enc_last
      | .x1, .decLast => l1.dec_last
      | .x2, .and => l2.bitand
      | .x2, .or => l2.bitor
      | .x2, .xor => l2.bitxor
      | .x2, .enc => l2.enc
      | .x2, .dec => l2.dec
      | .x2, .encLast => l2.enc_last
      | .x2, .decLast => l2.dec_last
      | .x4, .and => l4.bitand
      | .x4, .or => l4.bitor
      | .x4, .xor => l4.bitxor
      | .x4, .enc => l4.enc
      | .x4, .dec => l4.dec
      | .x4, .encLast => l4.enc_last
      | .x4, .decLast => l4.dec_last
    assign := fun
      | .x1, .and => Lib.Std.AesBlock.bitand_assign (B := t.Block)
      | .x1, .or => Lib.Std.AesBlock.bitor_assign (B := t.Block)
      | .x1, .xor => Lib.Std.AesBlock.bitxor_assign (B := t.Block)
      | .x2, .and => Lib.Std.AesBlockX2.bitand_assign (X2 := t.X2)
      | .x2, .or => Lib.Std.AesBlockX2.bitor_assign (X2 := t.X2)
      | .x2, .xor => Lib.Std.AesBlockX2.bitxor_assign (X2 := t.X2)
      | .x4, .and => Lib.Std.AesBlockX4.bitand_assign (X4 := t.X4)
      | .x4, .or => Lib.Std.AesBlockX4.bitor_assign (X4 := t.X4)
      | .x4, .xor => Lib.Std.AesBlockX4.bitxor_assign (X4 := t.X4)
    not := fun
      | .x1 => l1.not
      | .x2 => l2.not
      | .x4 => l4.not
    chain_enc := fun
      | .x1 => Lib.Std.AesBlock.chain_enc (B := t.Block)
      | .x2 => Lib.Std.AesBlockX2.chain_enc (X2 := t.X2)
      | .x4 => Lib.Std.AesBlockX4.chain_enc (X4 := t.X4)
    chain_dec := fun
      | .x1 => Lib.Std.AesBlock.chain_dec (B := t.Block)
      | .x2 => Lib.Std.AesBlockX2.chain_dec (X2 := t.X2)
      | .x4 => Lib.Std.AesBlockX4.chain_dec (X4 := t.X4)
    mc := l1.mc
    imc := l1.imc
    from_u128 := Lib.Std.AesBlock.from_u128 (B := t.Block)
    into_u128 := Lib.Std.AesBlock.into_u128 (B := t.Block)
    encFrom := fun
      | .k128 => Lib.Std.Aes128Enc.from (B := t.Block)
      | .k192 => Lib.Std.Aes192Enc.from (B := t.Block)
      | .k256 => Lib.Std.Aes256Enc.from (B := t.Block)
    decFrom := fun
      | .k128 => Lib.Std.Aes128Dec.from (B := t.Block)
      | .k192 => Lib.Std.Aes192Dec.from (B := t.Block)
      | .k256 => Lib.Std.Aes256Dec.from (B := t.Block)
    decrypter := fun
      | .k128 => Lib.Std.Aes128Enc.decrypter (B := t.Block)
      | .k192 => Lib.Std.Aes192Enc.decrypter (B := t.Block)
      | .k256 => Lib.Std.Aes256Enc.decrypter (B := t.Block)
    encrypter := fun
      | .k128 => Lib.Std.Aes128Dec.encrypter (B := t.Block)
      | .k192 => Lib.Std.Aes192Dec.encrypter (B := t.Block)
      | .k256 => Lib.Std.Aes256Dec.encrypter (B := t.Block)
    encrypt := fun
      | .k128, .x1 => Lib.Std.Aes128Enc.encrypt_block (B := t.Block)
      | .k128, .x2 => Lib.Std.Aes128Enc.encrypt_2_blocks (B := t.Block) (X2 := t.X2)
      | .k128, .x4 => Lib.Std.Aes128Enc.encrypt_4_blocks (B := t.Block) (X2 := t.X2) (X4 := t.X4)
      | .k192, .x1 => Lib.Std.Aes192Enc.encrypt_block (B := t.Block)
      | .k192, .x2 => Lib.Std.Aes192Enc.encrypt_2_blocks (B := t.Block) (X2 := t.X2)
      | .k192, .x4 => Lib.Std.Aes192Enc.encrypt_4_blocks (B := t.Block) (X2 := t.X2) (X4 := t.X4)
      | .k256, .x1 => Lib.Std.Aes256Enc.encrypt_block (B := t.Block)
      | .k256, .x2 => Lib.Std.Aes256Enc.encrypt_2_blocks (B := t.Block) (X2 := t.X2)
      | .k256, .x4 => Lib.Std.Aes256Enc.encrypt_4_blocks (B := t.Block) (X2 := t.X2) (X4 := t.X4)
    decrypt := fun
      | .k128, .x1 => Lib.Std.Aes128Dec.decrypt_block (B := t.Block)
      | .k128, .x2 => Lib.Std.Aes128Dec.decrypt_2_blocks (B := t.Block) (X2 := t.X2)
      | .k128, .x4 => Lib.Std.Aes128Dec.decrypt_4_blocks (B := t.Block) (X2 := t.X2) (X4 := t.X4)
      | .k192, .x1 => Lib.Std.Aes192Dec.decrypt_block (B := t.Block)
      | .k192, .x2 => Lib.Std.Aes192Dec.decrypt_2_blocks (B := t.Block) (X2 := t.X2)
      | .k192, .x4 => Lib.Std.Aes192Dec.decrypt_4_blocks (B := t.Block) (X2 := t.X2) (X4 := t.X4)
      | .k256, .x1 => Lib.Std.Aes256Dec.decrypt_block (B := t.Block)
      | .k256, .x2 => Lib.Std.Aes256Dec.decrypt_2_blocks (B := t.Block) (X2 := t.X2)
      | .k256, .x4 => Lib.Std.Aes256Dec.decrypt_4_blocks (B := t.Block) (X2 := t.X2) (X4 := t.X4) }

/-- The calls of the public API, on targets with `pre_enc` (src/lib.rs:333-392). -/
def apiPre (t : Target) [Cfg] [Aes.AesBlock t.Block] [Aes.AesBlockX2 t.Block t.X2]
    [Aes.AesBlockX4 t.Block t.X2 t.X4] [l1 : LBlock t.Block] [l2 : LVec t.X2 32] [l4 : LVec t.X4 64] [LHasPre t.Block] :
    LApi t.Vec (fun k => Aes.AesEnc t.Block k.rounds) (fun k => Aes.AesDec t.Block k.rounds) :=
  { new := fun
      | .x1 => l1.new
      | .x2 => l2.new
      | .x4 => l4.new
    from_bytes := fun
      | .x1 => l1.from_bytes
      | .x2 => l2.from_bytes
      | .x4 => l4.from_bytes
    from_ref := fun
      | .x1 => Lib.Pre.AesBlock.from_ref (B := t.Block)
      | .x2 => Lib.Pre.AesBlockX2.from_ref (X2 := t.X2)
      | .x4 => Lib.Pre.AesBlockX4.from_ref (X4 := t.X4)
    try_from := fun
      | .x1 => Lib.Pre.AesBlock.try_from (B := t.Block)
      | .x2 => Lib.Pre.AesBlockX2.try_from (X2 := t.X2)
      | .x4 => Lib.Pre.AesBlockX4.try_from (X4 := t.X4)
    zero := fun
      | .x1 => l1.zero
      | .x2 => l2.zero
      | .x4 => l4.zero
    default_ := fun
      | .x1 => Lib.Pre.AesBlock.default_ (B := t.Block)
      | .x2 => Lib.Pre.AesBlockX2.default_ (X2 := t.X2)
      | .x4 => Lib.Pre.AesBlockX4.default_ (X4 := t.X4)
    into_bytes := fun
      | .x1 => Lib.Pre.AesBlock.into_bytes (B := t.Block)
      | .x2 => Lib.Pre.AesBlockX2.into_bytes (X2 := t.X2)
      | .x4 => Lib.Pre.AesBlockX4.into_bytes (X4 := t.X4)
    store_to := fun
      | .x1 => l1.store_to
      | .x2 => l2.store_to
      | .x4 => l4.store_to
    is_zero := fun
      | .x1 => l1.is_zero
      | .x2 => l2.is_zero
      | .x4 => l4.is_zero
    eq := fun
      | .x1 => l1.eq
      | .x2 => l2.eq
      | .x4 => l4.eq
    bin := fun
      | .x1, .and => l1.bitand
      | .x1, .or => l1.bitor
      | .x1, .xor => l1.bitxor
      | .x1, .enc => l1.enc
      | .x1, .dec => l1.dec
      | .x1, .encLast => l1.enc_last
      | .x1, .decLast => l1.dec_last
      | .x2, .and => l2.bitand
      | .x2, .or => l2.bitor
      | .x2, .xor => l2.bitxor
      | .x2, .enc => l2.enc
      | .x2, .dec => l2.dec
      | .x2, .encLast => l2.enc_last
      | .x2, .decLast => l2.dec_last
      | .x4, .and => l4.bitand
      | .x4, .or => l4.bitor
      | .x4, .xor => l4.bitxor
      | .x4, .enc => l4.enc
      | .x4, .dec => l4.dec
      | .x4, .encLast => l4.enc_last
      | .x4, .decLast => l4.dec_last
    assign := fun
      | .x1, .and => Lib.Pre.AesBlock.bitand_assign (B := t.Block)
      | .x1, .or => Lib.Pre.AesBlock.bitor_assign (B := t.Block)
      | .x1, .xor => Lib.Pre.AesBlock.bitxor_assign (B := t.Block)
      | .x2, .and => Lib.Pre.AesBlockX2.bitand_assign (X2 := t.X2)
      | .x2, .or => Lib.Pre.AesBlockX2.bitor_assign (X2 := t.X2)
      | .x2, .xor => Lib.Pre.AesBlockX2.bitxor_assign (X2 := t.X2)
      | .x4, .and => Lib.Pre.AesBlockX4.bitand_assign (X4 := t.X4)
      | .x4, .or => Lib.Pre.AesBlockX4.bitor_assign (X4 := t.X4)
      | .x4, .xor => Lib.Pre.AesBlockX4.bitxor_assign (X4 := t.X4)
    not := fun
      | .x1 => l1.not
      | .x2 => l2.not
      | .x4 => l4.not
    chain_enc := fun
      | .x1 => Lib.Pre.AesBlock.chain_enc (B := t.Block)
      | .x2 => Lib.Pre.AesBlockX2.chain_enc (B := t.Block) (X2 := t.X2)
      | .x4 => Lib.Pre.AesBlockX4.chain_enc (B := t.Block) (X2 := t.X2) (X4 := t.X4)
    chain_dec := fun
      | .x1 => Lib.Pre.AesBlock.chain_dec (B := t.Block)
      | .x2 => Lib.Pre.AesBlockX2.chain_dec (B := t.Block) (X2 := t.X2)
      | .x4 => Lib.Pre.AesBlockX4.chain_dec (B := t.Block) (X2 := t.X2) (X4 := t.X4)
    mc := l1.mc
    imc := l1.imc
    from_u128 := Lib.Pre.AesBlock.from_u128 (B := t.Block)
    into_u128 := Lib.Pre.AesBlock.into_u128 (B := t.Block)
    encFrom := fun
      | .k128 => Lib.Pre.Aes128Enc.from (B := t.Block)
      | .k192 => Lib.Pre.Aes192Enc.from (B := t.Block)
      | .k256 => Lib.Pre.Aes256Enc.from (B := t.Block)
    decFrom := fun
      | .k128 => Lib.Pre.Aes128Dec.from (B := t.Block)
      | .k192 => Lib.Pre.Aes192Dec.from (B := t.Block)
      | .k256 => Lib.Pre.Aes256Dec.from (B := t.Block)
    decrypter := fun
      | .k128 => Lib.Pre.Aes128Enc.decrypter (B := t.Block)
      | .k192 => Lib.Pre.Aes192Enc.decrypter (B := t.Block)
      | .k256 => Lib.Pre.Aes256Enc.decrypter (B := t.Block)
    encrypter := fun
      | .k128 => Lib.Pre.Aes128Dec.encrypter (B := t.Block)
      | .k192 => Lib.Pre.Aes192Dec.encrypter (B := t.Block)
      | .k256 => Lib.Pre.Aes256Dec.encrypter (B := t.Block)
    encrypt := fun
      | .k128, .x1 => Lib.Pre.Aes128Enc.encrypt_block (B := t.Block)
      | .k128, .x2 => Lib.Pre.Aes128Enc.encrypt_2_blocks (B := t.Block) (X2 := t.X2)
      | .k128, .x4 => Lib.Pre.Aes128Enc.encrypt_4_blocks (B := t.Block) (X2 := t.X2) (X4 := t.X4)
      | .k192, .x1 => Lib.Pre.Aes192Enc.encrypt_block (B := t.Block)
      | .k192, .x2 => Lib.Pre.Aes192Enc.encrypt_2_blocks (B := t.Block) (X2 := t.X2)
      | .k192, .x4 => Lib.Pre.Aes192Enc.encrypt_4_blocks (B := t.Block) (X2 := t.X2) (X4 := t.X4)
      | .k256, .x1 => Lib.Pre.Aes256Enc.encrypt_block (B := t.Block)
      | .k256, .x2 => Lib.Pre.Aes256Enc.encrypt_2_blocks (B := t.Block) (X2 := t.X2)
      | .k256, .x4 => Lib.Pre.Aes256Enc.encrypt_4_blocks (B := t.Block) (X2 := t.X2) (X4 := t.X4)
    decrypt := fun
      | .k128, .x1 => Lib.Pre.Aes128Dec.decrypt_block (B := t.Block)
      | .k128, .x2 => Lib.Pre.Aes128Dec.decrypt_2_blocks (B := t.Block) (X2 := t.X2)
      | .k128, .x4 => Lib.Pre.Aes128Dec.decrypt_4_blocks (B := t.Block) (X2 := t.X2) (X4 := t.X4)
      | .k192, .x1 => Lib.Pre.Aes192Dec.decrypt_block (B := t.Block)
      | .k192, .x2 => Lib.Pre.Aes192Dec.decrypt_2_blocks (B := t.Block) (X2 := t.X2)
      | .k192, .x4 => Lib.Pre.Aes192Dec.decrypt_4_blocks (B := t.Block) (X2 := t.X2) (X4 := t.X4)
      | .k256, .x1 => Lib.Pre.Aes256Dec.decrypt_block (B := t.Block)
      | .k256, .x2 => Lib.Pre.Aes256Dec.decrypt_2_blocks (B := t.Block) (X2 := t.X2)
      | .k256, .x4 => Lib.Pre.Aes256Dec.decrypt_4_blocks (B := t.Block) (X2 := t.X2) (X4 := t.X4) }

/-- The calls of the public API on target `t`, built with the given profile, from the generated functions. -/
def api (pf : Aes.Profile) (e : Endian) (t : Target) :
    LApi (RustSrc.crate pf e t).V (RustSrc.crate pf e t).E (RustSrc.crate pf e t).D :=
  match t with
  | .table => @apiStd .table (cfg pf e .table) (RustSrc.block pf e .table) (RustSrc.blockX2 pf e .table)
      (RustSrc.blockX4 pf e .table) (block pf e .table) (blockX2 pf e .table) (blockX4 pf e .table)
  | .bitslice e' => @apiStd (.bitslice e') (cfg pf e (.bitslice e')) (RustSrc.block pf e (.bitslice e')) (RustSrc.blockX2 pf e (.bitslice e'))
      (RustSrc.blockX4 pf e (.bitslice e')) (block pf e (.bitslice e')) (blockX2 pf e (.bitslice e')) (blockX4 pf e (.bitslice e'))
  | .x86 => @apiStd .x86 (cfg pf e .x86) (RustSrc.block pf e .x86) (RustSrc.blockX2 pf e .x86)
      (RustSrc.blockX4 pf e .x86) (block pf e .x86) (blockX2 pf e .x86) (blockX4 pf e .x86)
  | .x86Vaes => @apiStd .x86Vaes (cfg pf e .x86Vaes) (RustSrc.block pf e .x86Vaes) (RustSrc.blockX2 pf e .x86Vaes)
      (RustSrc.blockX4 pf e .x86Vaes) (block pf e .x86Vaes) (blockX2 pf e .x86Vaes) (blockX4 pf e .x86Vaes)
  | .x86Vaes512 => @apiStd .x86Vaes512 (cfg pf e .x86Vaes512) (RustSrc.block pf e .x86Vaes512) (RustSrc.blockX2 pf e .x86Vaes512)
      (RustSrc.blockX4 pf e .x86Vaes512) (block pf e .x86Vaes512) (blockX2 pf e .x86Vaes512) (blockX4 pf e .x86Vaes512)
  | .riscv64 => @apiStd .riscv64 (cfg pf e .riscv64) (RustSrc.block pf e .riscv64) (RustSrc.blockX2 pf e .riscv64)
      (RustSrc.blockX4 pf e .riscv64) (block pf e .riscv64) (blockX2 pf e .riscv64) (blockX4 pf e .riscv64)
  | .arm b => @apiPre (.arm b) (cfg pf e (.arm b)) (RustSrc.block pf e (.arm b)) (RustSrc.blockX2 pf e (.arm b))
      (RustSrc.blockX4 pf e (.arm b)) (block pf e (.arm b)) (blockX2 pf e (.arm b)) (blockX4 pf e (.arm b)) (armPre pf e b)
  | .riscv32 => @apiPre .riscv32 (cfg pf e .riscv32) (RustSrc.block pf e .riscv32) (RustSrc.blockX2 pf e .riscv32)
      (RustSrc.blockX4 pf e .riscv32) (block pf e .riscv32) (blockX2 pf e .riscv32) (blockX4 pf e .riscv32) (riscv32Pre pf e)

/-- The first `n` calls of a client that is linked against the crate as the source text says it (profile, byte order,
target). -/
def run (pf : Aes.Profile) (e : Endian) (t : Target) (client : Client) (n : Nat) :
    L (List Obs × Store (RustSrc.crate pf e t)) :=
  runWith (RustSrc.crate pf e t) (api pf e t) client n

/-- What an observer of timing, branches and memory accesses learns from them. -/
def leakage (pf : Aes.Profile) (e : Endian) (t : Target) (client : Client) (n : Nat) : List Event :=
  (run pf e t client n).trace

end RustSrc.Leak
