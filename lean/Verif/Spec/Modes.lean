import Verif.Spec.Block
/-!
Two modes of operation of a block cipher, after NIST SP 800-38A, sections 6.2 (CBC) and 6.5 (CTR), on lists of whole blocks.
-/
namespace Modes
open AesSpec

/-- Section 6.2, encryption: each block is combined with the ciphertext block before it, the first with the initialization vector. -/
def cbcEncrypt (ciph : Bytes 16 → Bytes 16) (previous : Bytes 16) : List (Bytes 16) → List (Bytes 16)
  | [] => []
  | p :: ps => ciph (xorB p previous) :: cbcEncrypt ciph (ciph (xorB p previous)) ps
/-- Section 6.2, decryption. -/
def cbcDecrypt (ciphInv : Bytes 16 → Bytes 16) (previous : Bytes 16) : List (Bytes 16) → List (Bytes 16)
  | [] => []
  | c :: cs => xorB (ciphInv c) previous :: cbcDecrypt ciphInv c cs
/-- Section 6.5: each block is combined with the encryption of its counter. `i` is the number of the first block. -/
def ctr (ciph : Bytes 16 → Bytes 16) (counter : Nat → Bytes 16) (i : Nat) : List (Bytes 16) → List (Bytes 16)
  | [] => []
  | b :: bs => xorB b (ciph (counter i)) :: ctr ciph counter (i + 1) bs
end Modes
