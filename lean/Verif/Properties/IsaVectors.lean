import Verif.Model.IsaX86
/-!
Cross-checks of the trusted instruction semantics of `Verif/Model/IsaX86.lean` against the worked examples of Intel's white paper
"Advanced Encryption Standard (AES) New Instructions Set" (S. Gueron). These are tests of the trusted base, not proofs of
properties. The paper prints registers with the most significant byte first.
-/
namespace Aes
open Rust IsaX86

/-- A register printed most significant byte first. -/
def xmm (x : U128) : Vector U8 16 := toLe 16 x
def wpState := xmm 0x7b5b54657374566563746f725d53475d
def wpKey := xmm 0x48692853686179295b477565726f6e5d

example : aesenc wpState wpKey = xmm 0xa8311c2f9fdba3c58b104b58ded7e595 := by decide +kernel
example : aesenclast wpState wpKey = xmm 0xc7fb881e938c5964177ec42553fdc611 := by decide +kernel
example : aesdec wpState wpKey = xmm 0x138ac342faea2787b58eb95eb730392a := by decide +kernel
example : aesdeclast wpState wpKey = xmm 0xc5a391ef6b317f95d410637b72a593d0 := by decide +kernel
example : aesimc wpState = xmm 0x627a6f6644b109c82b18330a81c3b3e5 := by decide +kernel
example : aeskeygenassist 1 (xmm 0x3c4fcf098815f7aba6d2ae2816157e2b) = xmm 0x01eb848beb848a013424b5e524b5e434 := by
  decide +kernel
/-- The crate uses `_mm_shuffle_epi32` only to broadcast a dword; this pins the order of the lanes down (result of an x86-64 processor). -/
example : shuffle_epi32 0x39 (Vector.ofFn fun i => BitVec.ofNat 8 i.1) = #v[4, 5, 6, 7, 8, 9, 10, 11, 12, 13, 14, 15, 0, 1, 2, 3] := by
  decide +kernel
end Aes
