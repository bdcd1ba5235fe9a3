import Verif.Gen.LeakCore
import Verif.Gen.LeakIntrinsics
import Verif.Gen.Table
/-
src/aes_table_based.rs, function by function, with the trace of every call.
Generated by tools/rust2lean.py; do not edit.
-/
namespace RustSrc.Leak.Table
open Rust
open RustSrc.Leak.Core
variable [Cfg]

/-- src/aes_table_based.rs:4-7 `#[derive(PartialEq)]`. -/
def eq (self other : Aes.Table.Block) : Aes.Leak.L Bool :=
  Aes.Leak.andAlso (Aes.Leak.eqw self.w0 other.w0) (Aes.Leak.andAlso (Aes.Leak.eqw self.w1 other.w1) (Aes.Leak.andAlso (Aes.Leak.eqw self.w2 other.w2) (Aes.Leak.eqw self.w3 other.w3)))

/-- src/aes_table_based.rs:10-15 `load_u32_be`. -/
def load_u32_be (slice : List U8) (offset : Nat) : Aes.Leak.L U32 := do
  Aes.Leak.or (← Aes.Leak.or (← Aes.Leak.or (← Aes.Leak.shl (← Aes.Leak.cast 32 (← Aes.Leak.sidx slice (← quiet (Aes.Profile.uadd Cfg.profile offset 0)))) 24) (← Aes.Leak.shl (← Aes.Leak.cast 32 (← Aes.Leak.sidx slice (← quiet (Aes.Profile.uadd Cfg.profile offset 1)))) 16)) (← Aes.Leak.shl (← Aes.Leak.cast 32 (← Aes.Leak.sidx slice (← quiet (Aes.Profile.uadd Cfg.profile offset 2)))) 8)) (← Aes.Leak.cast 32 (← Aes.Leak.sidx slice (← quiet (Aes.Profile.uadd Cfg.profile offset 3))))

/-- src/aes_table_based.rs:18-23 `store_u32_be`. -/
def store_u32_be (slice : List U8) (num : U32) : Aes.Leak.L (List U8) := do
  let slice ← Aes.Leak.supd slice 0 (← Aes.Leak.cast 8 (← Aes.Leak.shr num 24))
  let slice ← Aes.Leak.supd slice 1 (← Aes.Leak.cast 8 (← Aes.Leak.shr num 16))
  let slice ← Aes.Leak.supd slice 2 (← Aes.Leak.cast 8 (← Aes.Leak.shr num 8))
  let slice ← Aes.Leak.supd slice 3 (← Aes.Leak.cast 8 num)
  pure slice

/-- src/aes_table_based.rs:85-92 `new`. -/
def new (value : Vector U8 16) : Aes.Leak.L Aes.Table.Block := do
  pure (⟨(← load_u32_be value.toList 0), (← load_u32_be value.toList 4), (← load_u32_be value.toList 8), (← load_u32_be value.toList 12)⟩ : Aes.Table.Block)

/-- src/aes_table_based.rs:27-29 `from`. -/
def from_bytes (value : Vector U8 16) : Aes.Leak.L Aes.Table.Block :=
  new value

/-- src/aes_table_based.rs:36-43 `bitand`. -/
def bitand (self : Aes.Table.Block) (rhs : Aes.Table.Block) : Aes.Leak.L Aes.Table.Block := do
  pure (⟨(← Aes.Leak.and self.w0 rhs.w0), (← Aes.Leak.and self.w1 rhs.w1), (← Aes.Leak.and self.w2 rhs.w2), (← Aes.Leak.and self.w3 rhs.w3)⟩ : Aes.Table.Block)

/-- src/aes_table_based.rs:50-57 `bitor`. -/
def bitor (self : Aes.Table.Block) (rhs : Aes.Table.Block) : Aes.Leak.L Aes.Table.Block := do
  pure (⟨(← Aes.Leak.or self.w0 rhs.w0), (← Aes.Leak.or self.w1 rhs.w1), (← Aes.Leak.or self.w2 rhs.w2), (← Aes.Leak.or self.w3 rhs.w3)⟩ : Aes.Table.Block)

/-- src/aes_table_based.rs:64-71 `bitxor`. -/
def bitxor (self : Aes.Table.Block) (rhs : Aes.Table.Block) : Aes.Leak.L Aes.Table.Block := do
  pure (⟨(← Aes.Leak.xor self.w0 rhs.w0), (← Aes.Leak.xor self.w1 rhs.w1), (← Aes.Leak.xor self.w2 rhs.w2), (← Aes.Leak.xor self.w3 rhs.w3)⟩ : Aes.Table.Block)

/-- src/aes_table_based.rs:78-80 `not`. -/
def not (self : Aes.Table.Block) : Aes.Leak.L Aes.Table.Block := do
  pure (⟨(← Aes.Leak.not self.w0), (← Aes.Leak.not self.w1), (← Aes.Leak.not self.w2), (← Aes.Leak.not self.w3)⟩ : Aes.Table.Block)

/-- src/aes_table_based.rs:95-101 `store_to`. -/
def store_to (self : Aes.Table.Block) (dst : List U8) : Aes.Leak.L (List U8) := do
  Aes.Leak.assert (decide (dst.length ≥ 16))
  let dst ← store_u32_be dst self.w0
  let dst ← Aes.Leak.onFrom dst 4 (fun s => store_u32_be s self.w1)
  let dst ← Aes.Leak.onFrom dst 8 (fun s => store_u32_be s self.w2)
  let dst ← Aes.Leak.onFrom dst 12 (fun s => store_u32_be s self.w3)
  pure dst

/-- src/aes_table_based.rs:104-106 `zero`. -/
def zero : Aes.Leak.L Aes.Table.Block :=
  pure (⟨0#32, 0#32, 0#32, 0#32⟩ : Aes.Table.Block)

/-- src/aes_table_based.rs:110-112 `is_zero`. -/
def is_zero (self : Aes.Table.Block) : Aes.Leak.L Bool := do
  Aes.Leak.eqw (← Aes.Leak.or (← Aes.Leak.or (← Aes.Leak.or self.w0 self.w1) self.w2) self.w3) 0#32

/-- src/aes_table_based.rs:368-370,374 `te0`. -/
def te0 (x : U32) : Aes.Leak.L U32 := do
  lookup .TE0 RustSrc.Table.TE0 (← Aes.Leak.cast 8 x)

/-- src/aes_table_based.rs:368-370,374 `te1`. -/
def te1 (x : U32) : Aes.Leak.L U32 := do
  lookup .TE1 RustSrc.Table.TE1 (← Aes.Leak.cast 8 x)

/-- src/aes_table_based.rs:368-370,374 `te2`. -/
def te2 (x : U32) : Aes.Leak.L U32 := do
  lookup .TE2 RustSrc.Table.TE2 (← Aes.Leak.cast 8 x)

/-- src/aes_table_based.rs:368-370,374 `te3`. -/
def te3 (x : U32) : Aes.Leak.L U32 := do
  lookup .TE3 RustSrc.Table.TE3 (← Aes.Leak.cast 8 x)

/-- src/aes_table_based.rs:116-123 `enc`. -/
def enc (self : Aes.Table.Block) (round_key : Aes.Table.Block) : Aes.Leak.L Aes.Table.Block := do
  pure (⟨(← Aes.Leak.xor (← Aes.Leak.xor (← Aes.Leak.xor (← Aes.Leak.xor (← te0 (← Aes.Leak.shr self.w0 24)) (← te1 (← Aes.Leak.shr self.w1 16))) (← te2 (← Aes.Leak.shr self.w2 8))) (← te3 self.w3)) round_key.w0), (← Aes.Leak.xor (← Aes.Leak.xor (← Aes.Leak.xor (← Aes.Leak.xor (← te0 (← Aes.Leak.shr self.w1 24)) (← te1 (← Aes.Leak.shr self.w2 16))) (← te2 (← Aes.Leak.shr self.w3 8))) (← te3 self.w0)) round_key.w1), (← Aes.Leak.xor (← Aes.Leak.xor (← Aes.Leak.xor (← Aes.Leak.xor (← te0 (← Aes.Leak.shr self.w2 24)) (← te1 (← Aes.Leak.shr self.w3 16))) (← te2 (← Aes.Leak.shr self.w0 8))) (← te3 self.w1)) round_key.w2), (← Aes.Leak.xor (← Aes.Leak.xor (← Aes.Leak.xor (← Aes.Leak.xor (← te0 (← Aes.Leak.shr self.w3 24)) (← te1 (← Aes.Leak.shr self.w0 16))) (← te2 (← Aes.Leak.shr self.w1 8))) (← te3 self.w2)) round_key.w3)⟩ : Aes.Table.Block)

/-- src/aes_table_based.rs:358-360,384 `te4_0`. -/
def te4_0 (x : U32) : Aes.Leak.L U32 := do
  Aes.Leak.and (← lookup .TE4 RustSrc.Table.TE4 (← Aes.Leak.cast 8 x)) 0xff000000#32

/-- src/aes_table_based.rs:358-360,384 `te4_1`. -/
def te4_1 (x : U32) : Aes.Leak.L U32 := do
  Aes.Leak.and (← lookup .TE4 RustSrc.Table.TE4 (← Aes.Leak.cast 8 x)) 0xff0000#32

/-- src/aes_table_based.rs:358-360,384 `te4_2`. -/
def te4_2 (x : U32) : Aes.Leak.L U32 := do
  Aes.Leak.and (← lookup .TE4 RustSrc.Table.TE4 (← Aes.Leak.cast 8 x)) 0xff00#32

/-- src/aes_table_based.rs:358-360,384 `te4_3`. -/
def te4_3 (x : U32) : Aes.Leak.L U32 := do
  Aes.Leak.and (← lookup .TE4 RustSrc.Table.TE4 (← Aes.Leak.cast 8 x)) 0xff#32

/-- src/aes_table_based.rs:127-150 `enc_last`. -/
def enc_last (self : Aes.Table.Block) (round_key : Aes.Table.Block) : Aes.Leak.L Aes.Table.Block := do
  pure (⟨(← Aes.Leak.xor (← Aes.Leak.xor (← Aes.Leak.xor (← Aes.Leak.xor (← te4_0 (← Aes.Leak.shr self.w0 24)) (← te4_1 (← Aes.Leak.shr self.w1 16))) (← te4_2 (← Aes.Leak.shr self.w2 8))) (← te4_3 self.w3)) round_key.w0), (← Aes.Leak.xor (← Aes.Leak.xor (← Aes.Leak.xor (← Aes.Leak.xor (← te4_0 (← Aes.Leak.shr self.w1 24)) (← te4_1 (← Aes.Leak.shr self.w2 16))) (← te4_2 (← Aes.Leak.shr self.w3 8))) (← te4_3 self.w0)) round_key.w1), (← Aes.Leak.xor (← Aes.Leak.xor (← Aes.Leak.xor (← Aes.Leak.xor (← te4_0 (← Aes.Leak.shr self.w2 24)) (← te4_1 (← Aes.Leak.shr self.w3 16))) (← te4_2 (← Aes.Leak.shr self.w0 8))) (← te4_3 self.w1)) round_key.w2), (← Aes.Leak.xor (← Aes.Leak.xor (← Aes.Leak.xor (← Aes.Leak.xor (← te4_0 (← Aes.Leak.shr self.w3 24)) (← te4_1 (← Aes.Leak.shr self.w0 16))) (← te4_2 (← Aes.Leak.shr self.w1 8))) (← te4_3 self.w2)) round_key.w3)⟩ : Aes.Table.Block)

/-- src/aes_table_based.rs:368-370,374 `td0`. -/
def td0 (x : U32) : Aes.Leak.L U32 := do
  lookup .TD0 RustSrc.Table.TD0 (← Aes.Leak.cast 8 x)

/-- src/aes_table_based.rs:368-370,374 `td1`. -/
def td1 (x : U32) : Aes.Leak.L U32 := do
  lookup .TD1 RustSrc.Table.TD1 (← Aes.Leak.cast 8 x)

/-- src/aes_table_based.rs:368-370,374 `td2`. -/
def td2 (x : U32) : Aes.Leak.L U32 := do
  lookup .TD2 RustSrc.Table.TD2 (← Aes.Leak.cast 8 x)

/-- src/aes_table_based.rs:368-370,374 `td3`. -/
def td3 (x : U32) : Aes.Leak.L U32 := do
  lookup .TD3 RustSrc.Table.TD3 (← Aes.Leak.cast 8 x)

/-- src/aes_table_based.rs:154-161 `dec`. -/
def dec (self : Aes.Table.Block) (round_key : Aes.Table.Block) : Aes.Leak.L Aes.Table.Block := do
  pure (⟨(← Aes.Leak.xor (← Aes.Leak.xor (← Aes.Leak.xor (← Aes.Leak.xor (← td0 (← Aes.Leak.shr self.w0 24)) (← td1 (← Aes.Leak.shr self.w3 16))) (← td2 (← Aes.Leak.shr self.w2 8))) (← td3 self.w1)) round_key.w0), (← Aes.Leak.xor (← Aes.Leak.xor (← Aes.Leak.xor (← Aes.Leak.xor (← td0 (← Aes.Leak.shr self.w1 24)) (← td1 (← Aes.Leak.shr self.w0 16))) (← td2 (← Aes.Leak.shr self.w3 8))) (← td3 self.w2)) round_key.w1), (← Aes.Leak.xor (← Aes.Leak.xor (← Aes.Leak.xor (← Aes.Leak.xor (← td0 (← Aes.Leak.shr self.w2 24)) (← td1 (← Aes.Leak.shr self.w1 16))) (← td2 (← Aes.Leak.shr self.w0 8))) (← td3 self.w3)) round_key.w2), (← Aes.Leak.xor (← Aes.Leak.xor (← Aes.Leak.xor (← Aes.Leak.xor (← td0 (← Aes.Leak.shr self.w3 24)) (← td1 (← Aes.Leak.shr self.w2 16))) (← td2 (← Aes.Leak.shr self.w1 8))) (← td3 self.w0)) round_key.w3)⟩ : Aes.Table.Block)

/-- src/aes_table_based.rs:362-364,384 `td4_0`. -/
def td4_0 (x : U32) : Aes.Leak.L U32 := do
  Aes.Leak.and (← lookup .TD4 RustSrc.Table.TD4 (← Aes.Leak.cast 8 x)) 0xff000000#32

/-- src/aes_table_based.rs:362-364,384 `td4_1`. -/
def td4_1 (x : U32) : Aes.Leak.L U32 := do
  Aes.Leak.and (← lookup .TD4 RustSrc.Table.TD4 (← Aes.Leak.cast 8 x)) 0xff0000#32

/-- src/aes_table_based.rs:362-364,384 `td4_2`. -/
def td4_2 (x : U32) : Aes.Leak.L U32 := do
  Aes.Leak.and (← lookup .TD4 RustSrc.Table.TD4 (← Aes.Leak.cast 8 x)) 0xff00#32

/-- src/aes_table_based.rs:362-364,384 `td4_3`. -/
def td4_3 (x : U32) : Aes.Leak.L U32 := do
  Aes.Leak.and (← lookup .TD4 RustSrc.Table.TD4 (← Aes.Leak.cast 8 x)) 0xff#32

/-- src/aes_table_based.rs:165-188 `dec_last`. -/
def dec_last (self : Aes.Table.Block) (round_key : Aes.Table.Block) : Aes.Leak.L Aes.Table.Block := do
  pure (⟨(← Aes.Leak.xor (← Aes.Leak.xor (← Aes.Leak.xor (← Aes.Leak.xor (← td4_0 (← Aes.Leak.shr self.w0 24)) (← td4_1 (← Aes.Leak.shr self.w3 16))) (← td4_2 (← Aes.Leak.shr self.w2 8))) (← td4_3 self.w1)) round_key.w0), (← Aes.Leak.xor (← Aes.Leak.xor (← Aes.Leak.xor (← Aes.Leak.xor (← td4_0 (← Aes.Leak.shr self.w1 24)) (← td4_1 (← Aes.Leak.shr self.w0 16))) (← td4_2 (← Aes.Leak.shr self.w3 8))) (← td4_3 self.w2)) round_key.w1), (← Aes.Leak.xor (← Aes.Leak.xor (← Aes.Leak.xor (← Aes.Leak.xor (← td4_0 (← Aes.Leak.shr self.w2 24)) (← td4_1 (← Aes.Leak.shr self.w1 16))) (← td4_2 (← Aes.Leak.shr self.w0 8))) (← td4_3 self.w3)) round_key.w2), (← Aes.Leak.xor (← Aes.Leak.xor (← Aes.Leak.xor (← Aes.Leak.xor (← td4_0 (← Aes.Leak.shr self.w3 24)) (← td4_1 (← Aes.Leak.shr self.w2 16))) (← td4_2 (← Aes.Leak.shr self.w1 8))) (← td4_3 self.w0)) round_key.w3)⟩ : Aes.Table.Block)

/-- src/aes_table_based.rs:192-211 `mc`. -/
def mc (self : Aes.Table.Block) : Aes.Leak.L Aes.Table.Block := do
  pure (⟨(← Aes.Leak.xor (← Aes.Leak.xor (← Aes.Leak.xor (← te0 (← td4_3 (← Aes.Leak.shr self.w0 24))) (← te1 (← td4_3 (← Aes.Leak.shr self.w0 16)))) (← te2 (← td4_3 (← Aes.Leak.shr self.w0 8)))) (← te3 (← td4_3 self.w0))), (← Aes.Leak.xor (← Aes.Leak.xor (← Aes.Leak.xor (← te0 (← td4_3 (← Aes.Leak.shr self.w1 24))) (← te1 (← td4_3 (← Aes.Leak.shr self.w1 16)))) (← te2 (← td4_3 (← Aes.Leak.shr self.w1 8)))) (← te3 (← td4_3 self.w1))), (← Aes.Leak.xor (← Aes.Leak.xor (← Aes.Leak.xor (← te0 (← td4_3 (← Aes.Leak.shr self.w2 24))) (← te1 (← td4_3 (← Aes.Leak.shr self.w2 16)))) (← te2 (← td4_3 (← Aes.Leak.shr self.w2 8)))) (← te3 (← td4_3 self.w2))), (← Aes.Leak.xor (← Aes.Leak.xor (← Aes.Leak.xor (← te0 (← td4_3 (← Aes.Leak.shr self.w3 24))) (← te1 (← td4_3 (← Aes.Leak.shr self.w3 16)))) (← te2 (← td4_3 (← Aes.Leak.shr self.w3 8)))) (← te3 (← td4_3 self.w3)))⟩ : Aes.Table.Block)

/-- src/aes_table_based.rs:215-234 `imc`. -/
def imc (self : Aes.Table.Block) : Aes.Leak.L Aes.Table.Block := do
  pure (⟨(← Aes.Leak.xor (← Aes.Leak.xor (← Aes.Leak.xor (← td0 (← te4_3 (← Aes.Leak.shr self.w0 24))) (← td1 (← te4_3 (← Aes.Leak.shr self.w0 16)))) (← td2 (← te4_3 (← Aes.Leak.shr self.w0 8)))) (← td3 (← te4_3 self.w0))), (← Aes.Leak.xor (← Aes.Leak.xor (← Aes.Leak.xor (← td0 (← te4_3 (← Aes.Leak.shr self.w1 24))) (← td1 (← te4_3 (← Aes.Leak.shr self.w1 16)))) (← td2 (← te4_3 (← Aes.Leak.shr self.w1 8)))) (← td3 (← te4_3 self.w1))), (← Aes.Leak.xor (← Aes.Leak.xor (← Aes.Leak.xor (← td0 (← te4_3 (← Aes.Leak.shr self.w2 24))) (← td1 (← te4_3 (← Aes.Leak.shr self.w2 16)))) (← td2 (← te4_3 (← Aes.Leak.shr self.w2 8)))) (← td3 (← te4_3 self.w2))), (← Aes.Leak.xor (← Aes.Leak.xor (← Aes.Leak.xor (← td0 (← te4_3 (← Aes.Leak.shr self.w3 24))) (← td1 (← te4_3 (← Aes.Leak.shr self.w3 16)))) (← td2 (← te4_3 (← Aes.Leak.shr self.w3 8)))) (← td3 (← te4_3 self.w3)))⟩ : Aes.Table.Block)

/-- src/aes_table_based.rs:238-240 `sub_word`. -/
def sub_word (x : U32) : Aes.Leak.L U32 := do
  Aes.Leak.or (← Aes.Leak.or (← Aes.Leak.or (← te4_0 (← Aes.Leak.shr x 16)) (← te4_1 (← Aes.Leak.shr x 8))) (← te4_2 x)) (← te4_3 (← Aes.Leak.shr x 24))

/-- src/aes_table_based.rs:242-248 `keyexp_128`. -/
def keyexp_128 (RCON : U32) (prev_rkey : Aes.Table.Block) : Aes.Leak.L Aes.Table.Block := do
  let k0 : U32 ← Aes.Leak.xor (← Aes.Leak.xor prev_rkey.w0 (← sub_word prev_rkey.w3)) RCON
  let k1 : U32 ← Aes.Leak.xor prev_rkey.w1 k0
  let k2 : U32 ← Aes.Leak.xor prev_rkey.w2 k1
  let k3 : U32 ← Aes.Leak.xor prev_rkey.w3 k2
  pure (⟨k0, k1, k2, k3⟩ : Aes.Table.Block)

/-- src/aes_table_based.rs:250-259 `keyexp_192`. -/
def keyexp_192 (RCON : U32) (prev : Vector U32 6) : Aes.Leak.L (Vector U32 6) := do
  let k0 : U32 ← Aes.Leak.xor (← Aes.Leak.xor (← Aes.Leak.idx .data prev 0) (← sub_word (← Aes.Leak.idx .data prev 5))) RCON
  let k1 : U32 ← Aes.Leak.xor (← Aes.Leak.idx .data prev 1) k0
  let k2 : U32 ← Aes.Leak.xor (← Aes.Leak.idx .data prev 2) k1
  let k3 : U32 ← Aes.Leak.xor (← Aes.Leak.idx .data prev 3) k2
  let k4 : U32 ← Aes.Leak.xor (← Aes.Leak.idx .data prev 4) k3
  let k5 : U32 ← Aes.Leak.xor (← Aes.Leak.idx .data prev 5) k4
  pure #v[k0, k1, k2, k3, k4, k5]

/-- src/aes_table_based.rs:261-267 `keyexp_256_1`. -/
def keyexp_256_1 (RCON : U32) (prev0 : Aes.Table.Block) (prev1 : Aes.Table.Block) : Aes.Leak.L Aes.Table.Block := do
  let k0 : U32 ← Aes.Leak.xor (← Aes.Leak.xor prev0.w0 (← sub_word prev1.w3)) RCON
  let k1 : U32 ← Aes.Leak.xor prev0.w1 k0
  let k2 : U32 ← Aes.Leak.xor prev0.w2 k1
  let k3 : U32 ← Aes.Leak.xor prev0.w3 k2
  pure (⟨k0, k1, k2, k3⟩ : Aes.Table.Block)

/-- src/aes_table_based.rs:269-275 `keyexp_256_2`. -/
def keyexp_256_2 (prev0 : Aes.Table.Block) (prev1 : Aes.Table.Block) : Aes.Leak.L Aes.Table.Block := do
  let k0 : U32 ← Aes.Leak.xor prev0.w0 (← sub_word (← Aes.Leak.rotr prev1.w3 8))
  let k1 : U32 ← Aes.Leak.xor prev0.w1 k0
  let k2 : U32 ← Aes.Leak.xor prev0.w2 k1
  let k3 : U32 ← Aes.Leak.xor prev0.w3 k2
  pure (⟨k0, k1, k2, k3⟩ : Aes.Table.Block)

/-- src/aes_table_based.rs:277-293 `keygen_128`. -/
def keygen_128 (key : Vector U8 16) : Aes.Leak.L (Vector Aes.Table.Block 11) := do
  let key0 : Aes.Table.Block ← from_bytes key
  let key1 : Aes.Table.Block ← keyexp_128 0x1000000#32 key0
  let key2 : Aes.Table.Block ← keyexp_128 0x2000000#32 key1
  let key3 : Aes.Table.Block ← keyexp_128 0x4000000#32 key2
  let key4 : Aes.Table.Block ← keyexp_128 0x8000000#32 key3
  let key5 : Aes.Table.Block ← keyexp_128 0x10000000#32 key4
  let key6 : Aes.Table.Block ← keyexp_128 0x20000000#32 key5
  let key7 : Aes.Table.Block ← keyexp_128 0x40000000#32 key6
  let key8 : Aes.Table.Block ← keyexp_128 0x80000000#32 key7
  let key9 : Aes.Table.Block ← keyexp_128 0x1b000000#32 key8
  let key10 : Aes.Table.Block ← keyexp_128 0x36000000#32 key9
  pure #v[key0, key1, key2, key3, key4, key5, key6, key7, key8, key9, key10]

/-- src/aes_table_based.rs:295-329 `keygen_192`. -/
def keygen_192 (key : Vector U8 24) : Aes.Leak.L (Vector Aes.Table.Block 13) := do
  let k : Vector U32 6 := #v[(← load_u32_be key.toList 0), (← load_u32_be key.toList 4), (← load_u32_be key.toList 8), (← load_u32_be key.toList 12), (← load_u32_be key.toList 16), (← load_u32_be key.toList 20)]
  let key0 : Aes.Table.Block := (⟨(← Aes.Leak.idx .data k 0), (← Aes.Leak.idx .data k 1), (← Aes.Leak.idx .data k 2), (← Aes.Leak.idx .data k 3)⟩ : Aes.Table.Block)
  let p : Vector U32 6 ← keyexp_192 0x1000000#32 k
  let key1 : Aes.Table.Block := (⟨(← Aes.Leak.idx .data k 4), (← Aes.Leak.idx .data k 5), (← Aes.Leak.idx .data p 0), (← Aes.Leak.idx .data p 1)⟩ : Aes.Table.Block)
  let key2 : Aes.Table.Block := (⟨(← Aes.Leak.idx .data p 2), (← Aes.Leak.idx .data p 3), (← Aes.Leak.idx .data p 4), (← Aes.Leak.idx .data p 5)⟩ : Aes.Table.Block)
  let k : Vector U32 6 ← keyexp_192 0x2000000#32 p
  let key3 : Aes.Table.Block := (⟨(← Aes.Leak.idx .data k 0), (← Aes.Leak.idx .data k 1), (← Aes.Leak.idx .data k 2), (← Aes.Leak.idx .data k 3)⟩ : Aes.Table.Block)
  let p : Vector U32 6 ← keyexp_192 0x4000000#32 k
  let key4 : Aes.Table.Block := (⟨(← Aes.Leak.idx .data k 4), (← Aes.Leak.idx .data k 5), (← Aes.Leak.idx .data p 0), (← Aes.Leak.idx .data p 1)⟩ : Aes.Table.Block)
  let key5 : Aes.Table.Block := (⟨(← Aes.Leak.idx .data p 2), (← Aes.Leak.idx .data p 3), (← Aes.Leak.idx .data p 4), (← Aes.Leak.idx .data p 5)⟩ : Aes.Table.Block)
  let k : Vector U32 6 ← keyexp_192 0x8000000#32 p
  let key6 : Aes.Table.Block := (⟨(← Aes.Leak.idx .data k 0), (← Aes.Leak.idx .data k 1), (← Aes.Leak.idx .data k 2), (← Aes.Leak.idx .data k 3)⟩ : Aes.Table.Block)
  let p : Vector U32 6 ← keyexp_192 0x10000000#32 k
  let key7 : Aes.Table.Block := (⟨(← Aes.Leak.idx .data k 4), (← Aes.Leak.idx .data k 5), (← Aes.Leak.idx .data p 0), (← Aes.Leak.idx .data p 1)⟩ : Aes.Table.Block)
  let key8 : Aes.Table.Block := (⟨(← Aes.Leak.idx .data p 2), (← Aes.Leak.idx .data p 3), (← Aes.Leak.idx .data p 4), (← Aes.Leak.idx .data p 5)⟩ : Aes.Table.Block)
  let k : Vector U32 6 ← keyexp_192 0x20000000#32 p
  let key9 : Aes.Table.Block := (⟨(← Aes.Leak.idx .data k 0), (← Aes.Leak.idx .data k 1), (← Aes.Leak.idx .data k 2), (← Aes.Leak.idx .data k 3)⟩ : Aes.Table.Block)
  let p : Vector U32 6 ← keyexp_192 0x40000000#32 k
  let key10 : Aes.Table.Block := (⟨(← Aes.Leak.idx .data k 4), (← Aes.Leak.idx .data k 5), (← Aes.Leak.idx .data p 0), (← Aes.Leak.idx .data p 1)⟩ : Aes.Table.Block)
  let key11 : Aes.Table.Block := (⟨(← Aes.Leak.idx .data p 2), (← Aes.Leak.idx .data p 3), (← Aes.Leak.idx .data p 4), (← Aes.Leak.idx .data p 5)⟩ : Aes.Table.Block)
  let k : Vector U32 6 ← keyexp_192 0x80000000#32 p
  let key12 : Aes.Table.Block := (⟨(← Aes.Leak.idx .data k 0), (← Aes.Leak.idx .data k 1), (← Aes.Leak.idx .data k 2), (← Aes.Leak.idx .data k 3)⟩ : Aes.Table.Block)
  pure #v[key0, key1, key2, key3, key4, key5, key6, key7, key8, key9, key10, key11, key12]

/-- src/lib.rs:176-178,213 `try_from`. -/
def try_from (value : List U8) : Aes.Leak.L (Except Nat Aes.Table.Block) :=
  try_from_slice 16 from_bytes value

/-- src/aes_table_based.rs:331-353 `keygen_256`. -/
def keygen_256 (key : Vector U8 32) : Aes.Leak.L (Vector Aes.Table.Block 15) := do
  let key0 : Aes.Table.Block ← Aes.Leak.unwrap (← try_from (← Aes.Leak.sliceTo key.toList 16))
  let key1 : Aes.Table.Block ← Aes.Leak.unwrap (← try_from (← Aes.Leak.sliceFrom key.toList 16))
  let key2 : Aes.Table.Block ← keyexp_256_1 0x1000000#32 key0 key1
  let key3 : Aes.Table.Block ← keyexp_256_2 key1 key2
  let key4 : Aes.Table.Block ← keyexp_256_1 0x2000000#32 key2 key3
  let key5 : Aes.Table.Block ← keyexp_256_2 key3 key4
  let key6 : Aes.Table.Block ← keyexp_256_1 0x4000000#32 key4 key5
  let key7 : Aes.Table.Block ← keyexp_256_2 key5 key6
  let key8 : Aes.Table.Block ← keyexp_256_1 0x8000000#32 key6 key7
  let key9 : Aes.Table.Block ← keyexp_256_2 key7 key8
  let key10 : Aes.Table.Block ← keyexp_256_1 0x10000000#32 key8 key9
  let key11 : Aes.Table.Block ← keyexp_256_2 key9 key10
  let key12 : Aes.Table.Block ← keyexp_256_1 0x20000000#32 key10 key11
  let key13 : Aes.Table.Block ← keyexp_256_2 key11 key12
  let key14 : Aes.Table.Block ← keyexp_256_1 0x40000000#32 key12 key13
  pure #v[key0, key1, key2, key3, key4, key5, key6, key7, key8, key9, key10, key11, key12, key13, key14]

/-- What src/aes_table_based.rs provides to the rest of the crate. -/
@[reducible] def block : Aes.Leak.LBlock Aes.Table.Block where
  new := new
  from_bytes := from_bytes
  store_to := store_to
  zero := zero
  is_zero := is_zero
  eq := eq
  bitand := bitand
  bitor := bitor
  bitxor := bitxor
  not := not
  enc := enc
  dec := dec
  enc_last := enc_last
  dec_last := dec_last
  pre := none
  mc := mc
  imc := imc
  keygen_128 := keygen_128
  keygen_192 := keygen_192
  keygen_256 := keygen_256

end RustSrc.Leak.Table
