import Verif.Spec.Types
/-
Every struct, impl header and static of the crate, in the order of the files.
Generated by tools/items.py; do not edit.
-/
namespace RustSrc
open RustTypes

def structs : List Struct := [
  ⟨"AesBlock", "src/aes_arm.rs", 11, ["Copy", "Clone"], .transparent, [(.prim "uint8x16_t")]⟩,
  ⟨"AesBlock", "src/aes_bitslice.rs", 233, ["Copy", "Clone", "PartialEq", "Eq"], .transparent, [(.prim "u128")]⟩,
  ⟨"AesBlock", "src/aes_riscv32.rs", 7, ["Eq", "PartialEq", "Copy", "Clone"], (.c 16), [(.prim "u32"), (.prim "u32"), (.prim "u32"), (.prim "u32")]⟩,
  ⟨"AesBlock", "src/aes_riscv64.rs", 24, ["Copy", "Clone", "Eq", "PartialEq"], (.c 16), [(.prim "u64"), (.prim "u64")]⟩,
  ⟨"AesBlock", "src/aes_table_based.rs", 7, ["Copy", "Clone", "PartialEq", "Eq"], (.c 16), [(.prim "u32"), (.prim "u32"), (.prim "u32"), (.prim "u32")]⟩,
  ⟨"AesBlock", "src/aes_x86.rs", 10, ["Copy", "Clone"], .transparent, [(.prim "__m128i")]⟩,
  ⟨"AesBlockX2", "src/aesdefault_x2.rs", 8, ["Copy", "Clone", "PartialEq", "Eq"], (.c 32), [(.named "AesBlock"), (.named "AesBlock")]⟩,
  ⟨"AesBlockX4", "src/aesdefault_x4.rs", 8, ["Copy", "Clone", "PartialEq", "Eq"], (.c 32), [(.named "AesBlockX2"), (.named "AesBlockX2")]⟩,
  ⟨"AesBlockX2", "src/aesni_x2.rs", 12, ["Copy", "Clone"], .transparent, [(.prim "__m256i")]⟩,
  ⟨"AesBlockX4", "src/aesni_x4.rs", 13, ["Copy", "Clone"], .transparent, [(.prim "__m512i")]⟩,
  ⟨"Aes128Enc", "src/lib.rs", 520, ["Debug", "Clone"], .rust, [(.array (.named "AesBlock") 11)]⟩,
  ⟨"Aes192Enc", "src/lib.rs", 521, ["Debug", "Clone"], .rust, [(.array (.named "AesBlock") 13)]⟩,
  ⟨"Aes256Enc", "src/lib.rs", 522, ["Debug", "Clone"], .rust, [(.array (.named "AesBlock") 15)]⟩,
  ⟨"Aes128Dec", "src/lib.rs", 520, ["Debug", "Clone"], .rust, [(.array (.named "AesBlock") 11)]⟩,
  ⟨"Aes192Dec", "src/lib.rs", 521, ["Debug", "Clone"], .rust, [(.array (.named "AesBlock") 13)]⟩,
  ⟨"Aes256Dec", "src/lib.rs", 522, ["Debug", "Clone"], .rust, [(.array (.named "AesBlock") 15)]⟩]
def impls : List ImplHeader := [
  ⟨(some "PartialEq"), false, false, "AesBlock", "src/aes_arm.rs", 13⟩,
  ⟨(some "Eq"), false, false, "AesBlock", "src/aes_arm.rs", 20⟩,
  ⟨(some "From"), false, false, "AesBlock", "src/aes_arm.rs", 22⟩,
  ⟨(some "BitAnd"), false, false, "AesBlock", "src/aes_arm.rs", 29⟩,
  ⟨(some "BitOr"), false, false, "AesBlock", "src/aes_arm.rs", 38⟩,
  ⟨(some "BitXor"), false, false, "AesBlock", "src/aes_arm.rs", 47⟩,
  ⟨(some "Not"), false, false, "AesBlock", "src/aes_arm.rs", 56⟩,
  ⟨none, false, false, "AesBlock", "src/aes_arm.rs", 65⟩,
  ⟨(some "From"), false, false, "AesBlock", "src/aes_bitslice.rs", 235⟩,
  ⟨(some "BitAnd"), false, false, "AesBlock", "src/aes_bitslice.rs", 242⟩,
  ⟨(some "BitOr"), false, false, "AesBlock", "src/aes_bitslice.rs", 251⟩,
  ⟨(some "BitXor"), false, false, "AesBlock", "src/aes_bitslice.rs", 260⟩,
  ⟨(some "Not"), false, false, "AesBlock", "src/aes_bitslice.rs", 269⟩,
  ⟨none, false, false, "AesBlock", "src/aes_bitslice.rs", 278⟩,
  ⟨(some "From"), false, false, "AesBlock", "src/aes_riscv32.rs", 42⟩,
  ⟨(some "BitAnd"), false, false, "AesBlock", "src/aes_riscv32.rs", 49⟩,
  ⟨(some "BitOr"), false, false, "AesBlock", "src/aes_riscv32.rs", 63⟩,
  ⟨(some "BitXor"), false, false, "AesBlock", "src/aes_riscv32.rs", 77⟩,
  ⟨(some "Not"), false, false, "AesBlock", "src/aes_riscv32.rs", 91⟩,
  ⟨none, false, false, "AesBlock", "src/aes_riscv32.rs", 100⟩,
  ⟨(some "From"), false, false, "AesBlock", "src/aes_riscv64.rs", 26⟩,
  ⟨(some "BitAnd"), false, false, "AesBlock", "src/aes_riscv64.rs", 33⟩,
  ⟨(some "BitOr"), false, false, "AesBlock", "src/aes_riscv64.rs", 42⟩,
  ⟨(some "BitXor"), false, false, "AesBlock", "src/aes_riscv64.rs", 51⟩,
  ⟨(some "Not"), false, false, "AesBlock", "src/aes_riscv64.rs", 60⟩,
  ⟨none, false, false, "AesBlock", "src/aes_riscv64.rs", 69⟩,
  ⟨(some "From"), false, false, "AesBlock", "src/aes_table_based.rs", 25⟩,
  ⟨(some "BitAnd"), false, false, "AesBlock", "src/aes_table_based.rs", 32⟩,
  ⟨(some "BitOr"), false, false, "AesBlock", "src/aes_table_based.rs", 46⟩,
  ⟨(some "BitXor"), false, false, "AesBlock", "src/aes_table_based.rs", 60⟩,
  ⟨(some "Not"), false, false, "AesBlock", "src/aes_table_based.rs", 74⟩,
  ⟨none, false, false, "AesBlock", "src/aes_table_based.rs", 83⟩,
  ⟨(some "PartialEq"), false, false, "AesBlock", "src/aes_x86.rs", 12⟩,
  ⟨(some "Eq"), false, false, "AesBlock", "src/aes_x86.rs", 19⟩,
  ⟨(some "From"), false, false, "AesBlock", "src/aes_x86.rs", 21⟩,
  ⟨(some "BitAnd"), false, false, "AesBlock", "src/aes_x86.rs", 28⟩,
  ⟨(some "BitOr"), false, false, "AesBlock", "src/aes_x86.rs", 37⟩,
  ⟨(some "BitXor"), false, false, "AesBlock", "src/aes_x86.rs", 46⟩,
  ⟨(some "Not"), false, false, "AesBlock", "src/aes_x86.rs", 55⟩,
  ⟨none, false, false, "AesBlock", "src/aes_x86.rs", 64⟩,
  ⟨(some "From"), false, false, "AesBlockX2", "src/aesdefault_x2.rs", 10⟩,
  ⟨(some "From"), false, false, "AesBlockX2", "src/aesdefault_x2.rs", 17⟩,
  ⟨(some "From"), false, false, "AesBlockX2", "src/aesdefault_x2.rs", 24⟩,
  ⟨(some "From"), false, false, "(AesBlock, AesBlock)", "src/aesdefault_x2.rs", 31⟩,
  ⟨(some "BitAnd"), false, false, "AesBlockX2", "src/aesdefault_x2.rs", 38⟩,
  ⟨(some "BitOr"), false, false, "AesBlockX2", "src/aesdefault_x2.rs", 47⟩,
  ⟨(some "BitXor"), false, false, "AesBlockX2", "src/aesdefault_x2.rs", 56⟩,
  ⟨(some "Not"), false, false, "AesBlockX2", "src/aesdefault_x2.rs", 65⟩,
  ⟨none, false, false, "AesBlockX2", "src/aesdefault_x2.rs", 74⟩,
  ⟨(some "From"), false, false, "AesBlockX4", "src/aesdefault_x4.rs", 10⟩,
  ⟨(some "From"), false, false, "AesBlockX4", "src/aesdefault_x4.rs", 17⟩,
  ⟨(some "From"), false, false, "AesBlockX4", "src/aesdefault_x4.rs", 24⟩,
  ⟨(some "From"), false, false, "AesBlockX4", "src/aesdefault_x4.rs", 31⟩,
  ⟨(some "From"), false, false, "AesBlockX4", "src/aesdefault_x4.rs", 38⟩,
  ⟨(some "From"), false, false, "(AesBlock, AesBlock, AesBlock, AesBlock)", "src/aesdefault_x4.rs", 45⟩,
  ⟨(some "From"), false, false, "(AesBlockX2, AesBlockX2)", "src/aesdefault_x4.rs", 54⟩,
  ⟨(some "BitAnd"), false, false, "AesBlockX4", "src/aesdefault_x4.rs", 61⟩,
  ⟨(some "BitOr"), false, false, "AesBlockX4", "src/aesdefault_x4.rs", 70⟩,
  ⟨(some "BitXor"), false, false, "AesBlockX4", "src/aesdefault_x4.rs", 79⟩,
  ⟨(some "Not"), false, false, "AesBlockX4", "src/aesdefault_x4.rs", 88⟩,
  ⟨none, false, false, "AesBlockX4", "src/aesdefault_x4.rs", 97⟩,
  ⟨(some "PartialEq"), false, false, "AesBlockX2", "src/aesni_x2.rs", 14⟩,
  ⟨(some "Eq"), false, false, "AesBlockX2", "src/aesni_x2.rs", 21⟩,
  ⟨(some "From"), false, false, "AesBlockX2", "src/aesni_x2.rs", 23⟩,
  ⟨(some "From"), false, false, "AesBlockX2", "src/aesni_x2.rs", 30⟩,
  ⟨(some "From"), false, false, "AesBlockX2", "src/aesni_x2.rs", 37⟩,
  ⟨(some "From"), false, false, "(AesBlock, AesBlock)", "src/aesni_x2.rs", 44⟩,
  ⟨(some "BitAnd"), false, false, "AesBlockX2", "src/aesni_x2.rs", 56⟩,
  ⟨(some "BitOr"), false, false, "AesBlockX2", "src/aesni_x2.rs", 64⟩,
  ⟨(some "BitXor"), false, false, "AesBlockX2", "src/aesni_x2.rs", 73⟩,
  ⟨(some "Not"), false, false, "AesBlockX2", "src/aesni_x2.rs", 82⟩,
  ⟨none, false, false, "AesBlockX2", "src/aesni_x2.rs", 91⟩,
  ⟨(some "PartialEq"), false, false, "AesBlockX4", "src/aesni_x4.rs", 15⟩,
  ⟨(some "Eq"), false, false, "AesBlockX4", "src/aesni_x4.rs", 22⟩,
  ⟨(some "From"), false, false, "AesBlockX4", "src/aesni_x4.rs", 24⟩,
  ⟨(some "From"), false, false, "AesBlockX4", "src/aesni_x4.rs", 31⟩,
  ⟨(some "From"), false, false, "AesBlockX4", "src/aesni_x4.rs", 44⟩,
  ⟨(some "From"), false, false, "(AesBlock, AesBlock, AesBlock, AesBlock)", "src/aesni_x4.rs", 51⟩,
  ⟨(some "From"), false, false, "AesBlockX4", "src/aesni_x4.rs", 65⟩,
  ⟨(some "From"), false, false, "AesBlockX4", "src/aesni_x4.rs", 72⟩,
  ⟨(some "From"), false, false, "(AesBlockX2, AesBlockX2)", "src/aesni_x4.rs", 79⟩,
  ⟨(some "BitAnd"), false, false, "AesBlockX4", "src/aesni_x4.rs", 91⟩,
  ⟨(some "BitOr"), false, false, "AesBlockX4", "src/aesni_x4.rs", 100⟩,
  ⟨(some "BitXor"), false, false, "AesBlockX4", "src/aesni_x4.rs", 109⟩,
  ⟨(some "Not"), false, false, "AesBlockX4", "src/aesni_x4.rs", 118⟩,
  ⟨none, false, false, "AesBlockX4", "src/aesni_x4.rs", 127⟩,
  ⟨(some "From"), false, false, "AesBlock", "src/lib.rs", 142⟩,
  ⟨(some "From"), false, false, "u128", "src/lib.rs", 149⟩,
  ⟨(some "Default"), false, false, "$name", "src/lib.rs", 158⟩,
  ⟨(some "From"), false, false, "$name", "src/lib.rs", 165⟩,
  ⟨(some "TryFrom"), false, false, "$name", "src/lib.rs", 172⟩,
  ⟨(some "From"), false, false, "[u8; $key_len]", "src/lib.rs", 181⟩,
  ⟨(some "BitAndAssign"), false, false, "$name", "src/lib.rs", 190⟩,
  ⟨(some "BitOrAssign"), false, false, "$name", "src/lib.rs", 197⟩,
  ⟨(some "BitXorAssign"), false, false, "$name", "src/lib.rs", 204⟩,
  ⟨(some "Debug"), false, false, "AesBlock", "src/lib.rs", 215⟩,
  ⟨(some "Display"), false, false, "AesBlock", "src/lib.rs", 221⟩,
  ⟨(some "Binary"), false, false, "AesBlock", "src/lib.rs", 231⟩,
  ⟨(some "LowerHex"), false, false, "AesBlock", "src/lib.rs", 243⟩,
  ⟨(some "UpperHex"), false, false, "AesBlock", "src/lib.rs", 255⟩,
  ⟨(some "Debug"), false, false, "AesBlockX2", "src/lib.rs", 267⟩,
  ⟨(some "Debug"), false, false, "AesBlockX4", "src/lib.rs", 273⟩,
  ⟨none, false, false, "$name", "src/lib.rs", 350⟩,
  ⟨none, false, false, "$name", "src/lib.rs", 370⟩,
  ⟨none, false, false, "$name", "src/lib.rs", 398⟩,
  ⟨(some "Sealed"), false, false, "$enc_name", "src/lib.rs", 435⟩,
  ⟨(some "From"), false, false, "$enc_name", "src/lib.rs", 437⟩,
  ⟨(some "Sealed"), false, false, "$dec_name", "src/lib.rs", 450⟩,
  ⟨(some "From"), false, false, "$dec_name", "src/lib.rs", 452⟩,
  ⟨(some "AesEncrypt"), false, false, "$enc_name", "src/lib.rs", 458⟩,
  ⟨(some "AesDecrypt"), false, false, "$dec_name", "src/lib.rs", 488⟩]
def statics : List Static := [
  ⟨"TE0", false, "[u32; 256]", "src/aes_table_based.rs", 386⟩,
  ⟨"TE1", false, "[u32; 256]", "src/aes_table_based.rs", 421⟩,
  ⟨"TE2", false, "[u32; 256]", "src/aes_table_based.rs", 456⟩,
  ⟨"TE3", false, "[u32; 256]", "src/aes_table_based.rs", 491⟩,
  ⟨"TE4", false, "[u32; 256]", "src/aes_table_based.rs", 526⟩,
  ⟨"TD0", false, "[u32; 256]", "src/aes_table_based.rs", 561⟩,
  ⟨"TD1", false, "[u32; 256]", "src/aes_table_based.rs", 596⟩,
  ⟨"TD2", false, "[u32; 256]", "src/aes_table_based.rs", 631⟩,
  ⟨"TD3", false, "[u32; 256]", "src/aes_table_based.rs", 666⟩,
  ⟨"TD4", false, "[u32; 256]", "src/aes_table_based.rs", 701⟩]
/-- src/aes_arm.rs: what it gives to users, in alphabetical order: type, and trait implemented (or derived) or public function. -/
def api_aes_arm : List (String × String) := [
  ("AesBlock", "impl BitAnd"),
  ("AesBlock", "impl BitOr"),
  ("AesBlock", "impl BitXor"),
  ("AesBlock", "impl Clone"),
  ("AesBlock", "impl Copy"),
  ("AesBlock", "impl Eq"),
  ("AesBlock", "impl From < [ u8 ; 16 ] >"),
  ("AesBlock", "impl Not"),
  ("AesBlock", "impl PartialEq"),
  ("AesBlock", "pub const fn new ( value : [ u8 ; 16 ] ) -> Self"),
  ("AesBlock", "pub fn dec ( self , round_key : Self ) -> Self"),
  ("AesBlock", "pub fn dec_last ( self , round_key : Self ) -> Self"),
  ("AesBlock", "pub fn enc ( self , round_key : Self ) -> Self"),
  ("AesBlock", "pub fn enc_last ( self , round_key : Self ) -> Self"),
  ("AesBlock", "pub fn imc ( self ) -> Self"),
  ("AesBlock", "pub fn is_zero ( self ) -> bool"),
  ("AesBlock", "pub fn mc ( self ) -> Self"),
  ("AesBlock", "pub fn store_to ( self , dst : & mut [ u8 ] )"),
  ("AesBlock", "pub fn zero ( ) -> Self")]
/-- src/aes_bitslice.rs: what it gives to users, in alphabetical order: type, and trait implemented (or derived) or public function. -/
def api_aes_bitslice : List (String × String) := [
  ("AesBlock", "impl BitAnd"),
  ("AesBlock", "impl BitOr"),
  ("AesBlock", "impl BitXor"),
  ("AesBlock", "impl Clone"),
  ("AesBlock", "impl Copy"),
  ("AesBlock", "impl Eq"),
  ("AesBlock", "impl From < [ u8 ; 16 ] >"),
  ("AesBlock", "impl Not"),
  ("AesBlock", "impl PartialEq"),
  ("AesBlock", "pub const fn new ( value : [ u8 ; 16 ] ) -> Self"),
  ("AesBlock", "pub fn dec ( self , round_key : Self ) -> Self"),
  ("AesBlock", "pub fn dec_last ( self , round_key : Self ) -> Self"),
  ("AesBlock", "pub fn enc ( self , round_key : Self ) -> Self"),
  ("AesBlock", "pub fn enc_last ( self , round_key : Self ) -> Self"),
  ("AesBlock", "pub fn imc ( self ) -> Self"),
  ("AesBlock", "pub fn is_zero ( self ) -> bool"),
  ("AesBlock", "pub fn mc ( self ) -> Self"),
  ("AesBlock", "pub fn store_to ( self , dst : & mut [ u8 ] )"),
  ("AesBlock", "pub fn zero ( ) -> Self")]
/-- src/aes_riscv32.rs: what it gives to users, in alphabetical order: type, and trait implemented (or derived) or public function. -/
def api_aes_riscv32 : List (String × String) := [
  ("AesBlock", "impl BitAnd"),
  ("AesBlock", "impl BitOr"),
  ("AesBlock", "impl BitXor"),
  ("AesBlock", "impl Clone"),
  ("AesBlock", "impl Copy"),
  ("AesBlock", "impl Eq"),
  ("AesBlock", "impl From < [ u8 ; 16 ] >"),
  ("AesBlock", "impl Not"),
  ("AesBlock", "impl PartialEq"),
  ("AesBlock", "pub const fn new ( value : [ u8 ; 16 ] ) -> Self"),
  ("AesBlock", "pub fn dec ( self , round_key : Self ) -> Self"),
  ("AesBlock", "pub fn dec_last ( self , round_key : Self ) -> Self"),
  ("AesBlock", "pub fn enc ( self , round_key : Self ) -> Self"),
  ("AesBlock", "pub fn enc_last ( self , round_key : Self ) -> Self"),
  ("AesBlock", "pub fn imc ( self ) -> Self"),
  ("AesBlock", "pub fn is_zero ( self ) -> bool"),
  ("AesBlock", "pub fn mc ( self ) -> Self"),
  ("AesBlock", "pub fn store_to ( self , dst : & mut [ u8 ] )"),
  ("AesBlock", "pub fn zero ( ) -> Self")]
/-- src/aes_riscv64.rs: what it gives to users, in alphabetical order: type, and trait implemented (or derived) or public function. -/
def api_aes_riscv64 : List (String × String) := [
  ("AesBlock", "impl BitAnd"),
  ("AesBlock", "impl BitOr"),
  ("AesBlock", "impl BitXor"),
  ("AesBlock", "impl Clone"),
  ("AesBlock", "impl Copy"),
  ("AesBlock", "impl Eq"),
  ("AesBlock", "impl From < [ u8 ; 16 ] >"),
  ("AesBlock", "impl Not"),
  ("AesBlock", "impl PartialEq"),
  ("AesBlock", "pub const fn new ( value : [ u8 ; 16 ] ) -> Self"),
  ("AesBlock", "pub fn dec ( self , round_key : Self ) -> Self"),
  ("AesBlock", "pub fn dec_last ( self , round_key : Self ) -> Self"),
  ("AesBlock", "pub fn enc ( self , round_key : Self ) -> Self"),
  ("AesBlock", "pub fn enc_last ( self , round_key : Self ) -> Self"),
  ("AesBlock", "pub fn imc ( self ) -> Self"),
  ("AesBlock", "pub fn is_zero ( self ) -> bool"),
  ("AesBlock", "pub fn mc ( self ) -> Self"),
  ("AesBlock", "pub fn store_to ( self , dst : & mut [ u8 ] )"),
  ("AesBlock", "pub fn zero ( ) -> Self")]
/-- src/aes_table_based.rs: what it gives to users, in alphabetical order: type, and trait implemented (or derived) or public function. -/
def api_aes_table_based : List (String × String) := [
  ("AesBlock", "impl BitAnd"),
  ("AesBlock", "impl BitOr"),
  ("AesBlock", "impl BitXor"),
  ("AesBlock", "impl Clone"),
  ("AesBlock", "impl Copy"),
  ("AesBlock", "impl Eq"),
  ("AesBlock", "impl From < [ u8 ; 16 ] >"),
  ("AesBlock", "impl Not"),
  ("AesBlock", "impl PartialEq"),
  ("AesBlock", "pub const fn new ( value : [ u8 ; 16 ] ) -> Self"),
  ("AesBlock", "pub fn dec ( self , round_key : Self ) -> Self"),
  ("AesBlock", "pub fn dec_last ( self , round_key : Self ) -> Self"),
  ("AesBlock", "pub fn enc ( self , round_key : Self ) -> Self"),
  ("AesBlock", "pub fn enc_last ( self , round_key : Self ) -> Self"),
  ("AesBlock", "pub fn imc ( self ) -> Self"),
  ("AesBlock", "pub fn is_zero ( self ) -> bool"),
  ("AesBlock", "pub fn mc ( self ) -> Self"),
  ("AesBlock", "pub fn store_to ( self , dst : & mut [ u8 ] )"),
  ("AesBlock", "pub fn zero ( ) -> Self")]
/-- src/aes_x86.rs: what it gives to users, in alphabetical order: type, and trait implemented (or derived) or public function. -/
def api_aes_x86 : List (String × String) := [
  ("AesBlock", "impl BitAnd"),
  ("AesBlock", "impl BitOr"),
  ("AesBlock", "impl BitXor"),
  ("AesBlock", "impl Clone"),
  ("AesBlock", "impl Copy"),
  ("AesBlock", "impl Eq"),
  ("AesBlock", "impl From < [ u8 ; 16 ] >"),
  ("AesBlock", "impl Not"),
  ("AesBlock", "impl PartialEq"),
  ("AesBlock", "pub const fn new ( value : [ u8 ; 16 ] ) -> Self"),
  ("AesBlock", "pub fn dec ( self , round_key : Self ) -> Self"),
  ("AesBlock", "pub fn dec_last ( self , round_key : Self ) -> Self"),
  ("AesBlock", "pub fn enc ( self , round_key : Self ) -> Self"),
  ("AesBlock", "pub fn enc_last ( self , round_key : Self ) -> Self"),
  ("AesBlock", "pub fn imc ( self ) -> Self"),
  ("AesBlock", "pub fn is_zero ( self ) -> bool"),
  ("AesBlock", "pub fn mc ( self ) -> Self"),
  ("AesBlock", "pub fn store_to ( self , dst : & mut [ u8 ] )"),
  ("AesBlock", "pub fn zero ( ) -> Self")]
/-- src/aesdefault_x2.rs: what it gives to users, in alphabetical order: type, and trait implemented (or derived) or public function. -/
def api_aesdefault_x2 : List (String × String) := [
  ("( AesBlock , AesBlock )", "impl From < AesBlockX2 >"),
  ("AesBlockX2", "impl BitAnd"),
  ("AesBlockX2", "impl BitOr"),
  ("AesBlockX2", "impl BitXor"),
  ("AesBlockX2", "impl Clone"),
  ("AesBlockX2", "impl Copy"),
  ("AesBlockX2", "impl Eq"),
  ("AesBlockX2", "impl From < ( AesBlock , AesBlock ) >"),
  ("AesBlockX2", "impl From < AesBlock >"),
  ("AesBlockX2", "impl From < [ u8 ; 32 ] >"),
  ("AesBlockX2", "impl Not"),
  ("AesBlockX2", "impl PartialEq"),
  ("AesBlockX2", "pub const fn new ( value : [ u8 ; 32 ] ) -> Self"),
  ("AesBlockX2", "pub fn dec ( self , round_key : Self ) -> Self"),
  ("AesBlockX2", "pub fn dec_last ( self , round_key : Self ) -> Self"),
  ("AesBlockX2", "pub fn enc ( self , round_key : Self ) -> Self"),
  ("AesBlockX2", "pub fn enc_last ( self , round_key : Self ) -> Self"),
  ("AesBlockX2", "pub fn is_zero ( self ) -> bool"),
  ("AesBlockX2", "pub fn store_to ( self , dst : & mut [ u8 ] )"),
  ("AesBlockX2", "pub fn zero ( ) -> Self")]
/-- src/aesdefault_x4.rs: what it gives to users, in alphabetical order: type, and trait implemented (or derived) or public function. -/
def api_aesdefault_x4 : List (String × String) := [
  ("( AesBlock , AesBlock , AesBlock , AesBlock )", "impl From < AesBlockX4 >"),
  ("( AesBlockX2 , AesBlockX2 )", "impl From < AesBlockX4 >"),
  ("AesBlockX4", "impl BitAnd"),
  ("AesBlockX4", "impl BitOr"),
  ("AesBlockX4", "impl BitXor"),
  ("AesBlockX4", "impl Clone"),
  ("AesBlockX4", "impl Copy"),
  ("AesBlockX4", "impl Eq"),
  ("AesBlockX4", "impl From < ( AesBlock , AesBlock , AesBlock , AesBlock ) >"),
  ("AesBlockX4", "impl From < ( AesBlockX2 , AesBlockX2 ) >"),
  ("AesBlockX4", "impl From < AesBlock >"),
  ("AesBlockX4", "impl From < AesBlockX2 >"),
  ("AesBlockX4", "impl From < [ u8 ; 64 ] >"),
  ("AesBlockX4", "impl Not"),
  ("AesBlockX4", "impl PartialEq"),
  ("AesBlockX4", "pub const fn new ( value : [ u8 ; 64 ] ) -> Self"),
  ("AesBlockX4", "pub fn dec ( self , round_key : Self ) -> Self"),
  ("AesBlockX4", "pub fn dec_last ( self , round_key : Self ) -> Self"),
  ("AesBlockX4", "pub fn enc ( self , round_key : Self ) -> Self"),
  ("AesBlockX4", "pub fn enc_last ( self , round_key : Self ) -> Self"),
  ("AesBlockX4", "pub fn is_zero ( self ) -> bool"),
  ("AesBlockX4", "pub fn store_to ( self , dst : & mut [ u8 ] )"),
  ("AesBlockX4", "pub fn zero ( ) -> Self")]
/-- src/aesni_x2.rs: what it gives to users, in alphabetical order: type, and trait implemented (or derived) or public function. -/
def api_aesni_x2 : List (String × String) := [
  ("( AesBlock , AesBlock )", "impl From < AesBlockX2 >"),
  ("AesBlockX2", "impl BitAnd"),
  ("AesBlockX2", "impl BitOr"),
  ("AesBlockX2", "impl BitXor"),
  ("AesBlockX2", "impl Clone"),
  ("AesBlockX2", "impl Copy"),
  ("AesBlockX2", "impl Eq"),
  ("AesBlockX2", "impl From < ( AesBlock , AesBlock ) >"),
  ("AesBlockX2", "impl From < AesBlock >"),
  ("AesBlockX2", "impl From < [ u8 ; 32 ] >"),
  ("AesBlockX2", "impl Not"),
  ("AesBlockX2", "impl PartialEq"),
  ("AesBlockX2", "pub const fn new ( value : [ u8 ; 32 ] ) -> Self"),
  ("AesBlockX2", "pub fn dec ( self , round_key : Self ) -> Self"),
  ("AesBlockX2", "pub fn dec_last ( self , round_key : Self ) -> Self"),
  ("AesBlockX2", "pub fn enc ( self , round_key : Self ) -> Self"),
  ("AesBlockX2", "pub fn enc_last ( self , round_key : Self ) -> Self"),
  ("AesBlockX2", "pub fn is_zero ( self ) -> bool"),
  ("AesBlockX2", "pub fn store_to ( self , dst : & mut [ u8 ] )"),
  ("AesBlockX2", "pub fn zero ( ) -> Self")]
/-- src/aesni_x4.rs: what it gives to users, in alphabetical order: type, and trait implemented (or derived) or public function. -/
def api_aesni_x4 : List (String × String) := [
  ("( AesBlock , AesBlock , AesBlock , AesBlock )", "impl From < AesBlockX4 >"),
  ("( AesBlockX2 , AesBlockX2 )", "impl From < AesBlockX4 >"),
  ("AesBlockX4", "impl BitAnd"),
  ("AesBlockX4", "impl BitOr"),
  ("AesBlockX4", "impl BitXor"),
  ("AesBlockX4", "impl Clone"),
  ("AesBlockX4", "impl Copy"),
  ("AesBlockX4", "impl Eq"),
  ("AesBlockX4", "impl From < ( AesBlock , AesBlock , AesBlock , AesBlock ) >"),
  ("AesBlockX4", "impl From < ( AesBlockX2 , AesBlockX2 ) >"),
  ("AesBlockX4", "impl From < AesBlock >"),
  ("AesBlockX4", "impl From < AesBlockX2 >"),
  ("AesBlockX4", "impl From < [ u8 ; 64 ] >"),
  ("AesBlockX4", "impl Not"),
  ("AesBlockX4", "impl PartialEq"),
  ("AesBlockX4", "pub const fn new ( value : [ u8 ; 64 ] ) -> Self"),
  ("AesBlockX4", "pub fn dec ( self , round_key : Self ) -> Self"),
  ("AesBlockX4", "pub fn dec_last ( self , round_key : Self ) -> Self"),
  ("AesBlockX4", "pub fn enc ( self , round_key : Self ) -> Self"),
  ("AesBlockX4", "pub fn enc_last ( self , round_key : Self ) -> Self"),
  ("AesBlockX4", "pub fn is_zero ( self ) -> bool"),
  ("AesBlockX4", "pub fn store_to ( self , dst : & mut [ u8 ] )"),
  ("AesBlockX4", "pub fn zero ( ) -> Self")]
/-- src/lib.rs: the same, what is outside of conditional compilation; `$name` and the like stand for the types a macro is used with. -/
def api_lib : List (String × String) := [
  ("$ dec_name", "impl AesDecrypt < $ key_len >"),
  ("$ dec_name", "impl From < [ u8 ; $ key_len ] >"),
  ("$ dec_name", "impl private :: Sealed"),
  ("$ enc_name", "impl AesEncrypt < $ key_len >"),
  ("$ enc_name", "impl From < [ u8 ; $ key_len ] >"),
  ("$ enc_name", "impl private :: Sealed"),
  ("$ name", "impl BitAndAssign"),
  ("$ name", "impl BitOrAssign"),
  ("$ name", "impl BitXorAssign"),
  ("$ name", "impl Default"),
  ("$ name", "impl From < & [ u8 ; $ key_len ] >"),
  ("$ name", "impl TryFrom < & [ u8 ] >"),
  ("$dec_name", "impl Clone"),
  ("$dec_name", "impl Debug"),
  ("$enc_name", "impl Clone"),
  ("$enc_name", "impl Debug"),
  ("AesBlock", "impl Binary"),
  ("AesBlock", "impl Debug"),
  ("AesBlock", "impl Display"),
  ("AesBlock", "impl From < u128 >"),
  ("AesBlock", "impl LowerHex"),
  ("AesBlock", "impl UpperHex"),
  ("AesBlockX2", "impl Debug"),
  ("AesBlockX4", "impl Debug"),
  ("[ u8 ; $ key_len ]", "impl From < $ name >"),
  ("u128", "impl From < AesBlock >")]
/-- src/lib.rs:333-424: the same for branch 0. -/
def api_chain0 : List (String × String) := [
  ("$ name", "pub fn chain_dec ( self , keys : & [ $ name ] ) -> $ name"),
  ("$ name", "pub fn chain_enc ( self , keys : & [ $ name ] ) -> $ name")]
/-- src/lib.rs:333-424: the same for branch 1. -/
def api_chain1 : List (String × String) := [
  ("$ name", "pub fn chain_dec ( self , keys : & [ $ name ] ) -> $ name"),
  ("$ name", "pub fn chain_enc ( self , keys : & [ $ name ] ) -> $ name")]
def items : Items := ⟨structs, impls, statics⟩
end RustSrc
