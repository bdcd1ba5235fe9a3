/-
Specification: FIPS-197 (Advanced Encryption Standard), transcribed from the standard.
It does not import, and shares no definition with, the model of the code under /repo.
Section numbers refer to NIST FIPS 197-upd1 (the document the crate's README links).
-/
namespace Fips197

/-- A byte, i.e. an element of GF(2^8): bit `i` is the coefficient of `x^i` (section 4). -/
abbrev Byte := BitVec 8

/-- Section 4.2, `xTimes`: multiplication by `x` modulo `x^8 + x^4 + x^3 + x + 1`. -/
def xtimes (b : Byte) : Byte :=
  if b.getLsbD 7 then (b <<< 1) ^^^ 0x1b#8 else b <<< 1

/-- Section 4.2: `a • b` in GF(2^8), as the sum of `x^i • b` over the bits `i` of `a`
(Horner's rule, most significant bit of `a` first). -/
def mul (a b : Byte) : Byte :=
  (List.range 8).foldr
    (fun i acc => xtimes acc ^^^ (if a.getLsbD i then b else 0#8)) 0#8

/-- `b^n` in GF(2^8). -/
def pow (b : Byte) : Nat → Byte
  | 0 => 1#8
  | n + 1 => mul b (pow b n)

/-- Section 5.1.1: multiplicative inverse in GF(2^8), with `{00}` mapped to itself (the
multiplicative group has order 255, so `b^254` is the inverse of `b ≠ 0`;
see `Fips197.mul_inv` for the proof that it is one). -/
def inv (b : Byte) : Byte :=
  let b2 := mul b b          -- b^2
  let b4 := mul b2 b2
  let b8 := mul b4 b4
  let b16 := mul b8 b8
  let b32 := mul b16 b16
  let b64 := mul b32 b32
  let b128 := mul b64 b64
  mul b128 (mul b64 (mul b32 (mul b16 (mul b8 (mul b4 b2)))))

/-- The byte whose bit `i` is `f i`. -/
def ofBits (f : Nat → Bool) : Byte :=
  (List.range 8).foldr (fun i acc => acc ||| (if f i then 1#8 <<< i else 0#8)) 0#8

/-- Section 5.1.1, SBOX(): the affine transformation
`b'_i = b_i + b_{(i+4) mod 8} + b_{(i+5) mod 8} + b_{(i+6) mod 8} + b_{(i+7) mod 8} + c_i`
with `c = {63}`, applied to the inverse. -/
def sbox (b : Byte) : Byte :=
  let t := inv b
  ofBits fun i =>
    t.getLsbD i ^^ t.getLsbD ((i + 4) % 8) ^^ t.getLsbD ((i + 5) % 8) ^^
      t.getLsbD ((i + 6) % 8) ^^ t.getLsbD ((i + 7) % 8) ^^ (0x63#8).getLsbD i

/-- Section 5.3.2, INVSBOX(): the inverse of SBOX(): undo the affine map
(`b'_i = b_{(i+2) mod 8} + b_{(i+5) mod 8} + b_{(i+7) mod 8} + d_i`, `d = {05}`), then invert.
`invSbox_sbox` and `sbox_invSbox` show that it is the inverse of `sbox`. -/
def invSbox (b : Byte) : Byte :=
  inv <| ofBits fun i =>
    b.getLsbD ((i + 2) % 8) ^^ b.getLsbD ((i + 5) % 8) ^^ b.getLsbD ((i + 7) % 8) ^^
      (0x05#8).getLsbD i

/-- Section 3.4: the state, `s r c` being the byte in row `r`, column `c`. -/
abbrev State := Fin 4 → Fin 4 → Byte

/-- Section 5.2: a word, four bytes `[a0, a1, a2, a3]`. -/
abbrev Word := Fin 4 → Byte

/-- Section 3.4: `s[r,c] = in[r + 4c]`. -/
def State.ofBytes (v : Vector Byte 16) : State :=
  fun r c => v[r.val + 4 * c.val]

/-- Section 3.4: `out[r + 4c] = s[r,c]`. -/
def State.toBytes (s : State) : Vector Byte 16 :=
  Vector.ofFn fun i : Fin 16 => s ⟨i.val % 4, by omega⟩ ⟨i.val / 4, by omega⟩

/-- Section 5.1.1. -/
def subBytes (s : State) : State := fun r c => sbox (s r c)
/-- Section 5.1.2: `s'[r,c] = s[r,(c+r) mod 4]` (addition in `Fin 4` is modulo 4). -/
def shiftRows (s : State) : State := fun r c => s r (c + r)
/-- Section 5.1.3: `s'[r,c] = {02}•s[r,c] + {03}•s[r+1,c] + s[r+2,c] + s[r+3,c]`
(row indices modulo 4; this is the circulant matrix of equation 5.7). -/
def mixColumns (s : State) : State := fun r c =>
  mul 0x02#8 (s r c) ^^^ mul 0x03#8 (s (r + 1) c) ^^^ s (r + 2) c ^^^ s (r + 3) c
/-- Section 5.1.4: column `c` of the round key is the word `k c`. -/
def addRoundKey (k : Fin 4 → Word) (s : State) : State := fun r c => s r c ^^^ k c r

/-- Section 5.3.2. -/
def invSubBytes (s : State) : State := fun r c => invSbox (s r c)
/-- Section 5.3.1: `s'[r,c] = s[r,(c-r) mod 4]`. -/
def invShiftRows (s : State) : State := fun r c => s r (c - r)
/-- Section 5.3.3, equation 5.14. -/
def invMixColumns (s : State) : State := fun r c =>
  mul 0x0e#8 (s r c) ^^^ mul 0x0b#8 (s (r + 1) c) ^^^ mul 0x0d#8 (s (r + 2) c) ^^^
    mul 0x09#8 (s (r + 3) c)

/-- Section 5.2: ROTWORD([a0,a1,a2,a3]) = [a1,a2,a3,a0]. -/
def rotWord (w : Word) : Word := fun i => w (i + 1)
/-- Section 5.2: SUBWORD. -/
def subWord (w : Word) : Word := fun i => sbox (w i)
/-- Section 5.2: Rcon[j] = [x^(j-1), {00}, {00}, {00}], `x = {02}`. -/
def rcon (j : Nat) : Word := fun i => if i = 0 then pow 0x02#8 (j - 1) else 0#8
/-- Bitwise sum of words. -/
def Word.add (a b : Word) : Word := fun i => a i ^^^ b i

/-- Word `i` of a byte string: `[b[4i], b[4i+1], b[4i+2], b[4i+3]]` (bytes past the end read as 0;
never reached below, where `i < Nk` and the key has `4*Nk` bytes). -/
def wordAt {n : Nat} (key : Vector Byte n) (i : Nat) : Word := fun j => key.toList.getD (4 * i + j.val) 0#8

/-- Section 5.2, Algorithm 2, KEYEXPANSION: the word `w[i]` for a key of `nk` words. -/
def keyExpansion (nk : Nat) {n : Nat} (key : Vector Byte n) (i : Nat) : Word :=
  if _h : i < nk ∨ nk = 0 then wordAt key i
  else
    let temp := keyExpansion nk key (i - 1)
    let temp :=
      if i % nk = 0 then Word.add (subWord (rotWord temp)) (rcon (i / nk))
      else if nk > 6 ∧ i % nk = 4 then subWord temp
      else temp
    Word.add (keyExpansion nk key (i - nk)) temp
termination_by i
decreasing_by all_goals omega

/-- The four words `w[4r .. 4r+3]` of round `r`. -/
def roundKey (w : Nat → Word) (r : Nat) : Fin 4 → Word := fun c => w (4 * r + c.val)

/-- Section 5.1, Algorithm 1, CIPHER: the state after the initial AddRoundKey and rounds `1..r`. -/
def cipherRounds (w : Nat → Word) (s : State) : Nat → State
  | 0 => addRoundKey (roundKey w 0) s
  | r + 1 => addRoundKey (roundKey w (r + 1)) (mixColumns (shiftRows (subBytes (cipherRounds w s r))))

/-- Section 5.1, Algorithm 1, CIPHER(in, Nr, w). -/
def cipher (nr : Nat) (w : Nat → Word) (inp : Vector Byte 16) : Vector Byte 16 :=
  let s := cipherRounds w (State.ofBytes inp) (nr - 1)
  State.toBytes (addRoundKey (roundKey w nr) (shiftRows (subBytes s)))

/-- Section 5.3, Algorithm 3, INVCIPHER: the state after the initial AddRoundKey (with round key `nr`)
and `k` rounds of the loop `for round from Nr-1 downto 1`. -/
def invCipherRounds (nr : Nat) (w : Nat → Word) (s : State) : Nat → State
  | 0 => addRoundKey (roundKey w nr) s
  | k + 1 =>
    invMixColumns (addRoundKey (roundKey w (nr - (k + 1)))
      (invSubBytes (invShiftRows (invCipherRounds nr w s k))))

/-- Section 5.3, Algorithm 3, INVCIPHER(in, Nr, w). -/
def invCipher (nr : Nat) (w : Nat → Word) (inp : Vector Byte 16) : Vector Byte 16 :=
  let s := invCipherRounds nr w (State.ofBytes inp) (nr - 1)
  State.toBytes (addRoundKey (roundKey w 0) (invSubBytes (invShiftRows s)))

/-- Section 5, Table 3 and section 5: AES-128(in, key) = CIPHER(in, 10, KEYEXPANSION(key)), `Nk = 4`. -/
def aes128 (key : Vector Byte 16) (inp : Vector Byte 16) : Vector Byte 16 :=
  cipher 10 (keyExpansion 4 key) inp
/-- AES-192: `Nk = 6`, `Nr = 12`. -/
def aes192 (key : Vector Byte 24) (inp : Vector Byte 16) : Vector Byte 16 :=
  cipher 12 (keyExpansion 6 key) inp
/-- AES-256: `Nk = 8`, `Nr = 14`. -/
def aes256 (key : Vector Byte 32) (inp : Vector Byte 16) : Vector Byte 16 :=
  cipher 14 (keyExpansion 8 key) inp
/-- The inverse cipher for 128-bit keys. -/
def aes128Inv (key : Vector Byte 16) (inp : Vector Byte 16) : Vector Byte 16 :=
  invCipher 10 (keyExpansion 4 key) inp
/-- The inverse cipher for 192-bit keys. -/
def aes192Inv (key : Vector Byte 24) (inp : Vector Byte 16) : Vector Byte 16 :=
  invCipher 12 (keyExpansion 6 key) inp
/-- The inverse cipher for 256-bit keys. -/
def aes256Inv (key : Vector Byte 32) (inp : Vector Byte 16) : Vector Byte 16 :=
  invCipher 14 (keyExpansion 8 key) inp

end Fips197
