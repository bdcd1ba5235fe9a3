import Verif.Model.Target
/-
The `mem::transmute` at the end of src/aes_riscv64.rs `keygen_192` (lines 219-221): a tuple of eight triples of `u64` and two
`u64`s becomes `[AesBlock; 13]`. Rust leaves the layout of tuples unspecified, so the order of the 26 words in memory is a
parameter here; `Model/Riscv64.lean` has declaration order built in.
-/
namespace Aes.Riscv64
open Rust IsaRiscv

/-- The words of the tuple in declaration order, src/aes_riscv64.rs:203-221. -/
def words_192 (key : Vector U8 24) : M (Vector U64 26) := do
  let state0 := (← load_u64 key.toList 0, ← load_u64 key.toList 8, ← load_u64 key.toList 16)
  let state1 := keyexp_192 0 state0
  let state2 := keyexp_192 1 state1
  let state3 := keyexp_192 2 state2
  let state4 := keyexp_192 3 state3
  let state5 := keyexp_192 4 state4
  let state6 := keyexp_192 5 state5
  let state7 := keyexp_192 6 state6
  let state24 := aes64ks2 (aes64ks1i state7.2.2 7) state7.1
  let state25 := aes64ks2 state24 state7.2.1
  pure #v[state0.1, state0.2.1, state0.2.2, state1.1, state1.2.1, state1.2.2, state2.1, state2.2.1, state2.2.2,
    state3.1, state3.2.1, state3.2.2, state4.1, state4.2.1, state4.2.2, state5.1, state5.2.1, state5.2.2,
    state6.1, state6.2.1, state6.2.2, state7.1, state7.2.1, state7.2.2, state24, state25]

/-- Where the compiler puts the words of the tuple: `layout[i]` is the (declaration) number of the word at offset `8 * i`. -/
abbrev Layout := Vector (Fin 26) 26
/-- Declaration order. -/
def inOrder : Layout := Vector.ofFn fun i => i

/-- `mem::transmute` to `[AesBlock; 13]`, where `AesBlock` is `repr(C)` with two `u64` (src/aes_riscv64.rs:21-24): block `i` is made of the
words at offsets `16 * i` and `16 * i + 8`. -/
def transmute_192 (layout : Layout) (w : Vector U64 26) : Vector Block 13 :=
  Vector.ofFn fun i => ⟨w[layout[2 * i.val]], w[layout[2 * i.val + 1]]⟩

/-- src/aes_riscv64.rs:201-223 `keygen_192`, under a given layout. -/
def keygen_192_with (layout : Layout) (key : Vector U8 24) : M (Vector Block 13) := do
  pure (transmute_192 layout (← words_192 key))

end Aes.Riscv64
