import Verif.Gen.Bitslice
/-
The tests of src/aes_bitslice.rs, test by test.
Generated by tools/rust2lean.py; do not edit.
-/
namespace RustSrc.Bitslice.Tests
open Rust
open RustSrc.Core
variable [Cfg]

/-- src/aes_bitslice.rs:415-423 `test_subbytes`. -/
def test_subbytes : M Unit := do
  let x : Vector U8 16 := #v[0#8, 1#8, 2#8, 3#8, 4#8, 5#8, 6#8, 7#8, 8#8, 9#8, 0xa#8, 0xb#8, 0xc#8, 0xd#8, 0xe#8, 0xf#8]
  let r : Vector U8 16 := toNe Cfg.endian 16 (subbytes (fromNe Cfg.endian 128 x))
  let e : Vector U8 16 := #v[0x63#8, 0x7c#8, 0x77#8, 0x7b#8, 0xf2#8, 0x6b#8, 0x6f#8, 0xc5#8, 0x30#8, 1#8, 0x67#8, 0x2b#8, 0xfe#8, 0xd7#8, 0xab#8, 0x76#8]
  assert (r == e)
  pure ()

/-- src/aes_bitslice.rs:426-434 `test_invsubbytes`. -/
def test_invsubbytes : M Unit := do
  let x : Vector U8 16 := #v[0#8, 1#8, 2#8, 3#8, 4#8, 5#8, 6#8, 7#8, 8#8, 9#8, 0xa#8, 0xb#8, 0xc#8, 0xd#8, 0xe#8, 0xf#8]
  let r : Vector U8 16 := toNe Cfg.endian 16 (invsubbytes (fromNe Cfg.endian 128 x))
  let e : Vector U8 16 := #v[0x52#8, 9#8, 0x6a#8, 0xd5#8, 0x30#8, 0x36#8, 0xa5#8, 0x38#8, 0xbf#8, 0x40#8, 0xa3#8, 0x9e#8, 0x81#8, 0xf3#8, 0xd7#8, 0xfb#8]
  assert (r == e)
  pure ()

/-- src/aes_bitslice.rs:415-434 The functions marked `#[test]`. -/
def suite : List (M Unit) :=
  [test_subbytes, test_invsubbytes]

end RustSrc.Bitslice.Tests
