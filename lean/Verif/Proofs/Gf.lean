import Verif.Spec.Fips197
/-! GF(2^8) facts used everywhere: complete case analyses over one byte, and linearity. -/
namespace Fips197

/-- The S-box as a literal table (a proof device: makes 256-way kernel case analyses cheap). -/
def sboxTable : List Byte := [
  0x63#8, 0x7c#8, 0x77#8, 0x7b#8, 0xf2#8, 0x6b#8, 0x6f#8, 0xc5#8, 0x30#8, 0x01#8, 0x67#8, 0x2b#8, 0xfe#8, 0xd7#8, 0xab#8, 0x76#8,
  0xca#8, 0x82#8, 0xc9#8, 0x7d#8, 0xfa#8, 0x59#8, 0x47#8, 0xf0#8, 0xad#8, 0xd4#8, 0xa2#8, 0xaf#8, 0x9c#8, 0xa4#8, 0x72#8, 0xc0#8,
  0xb7#8, 0xfd#8, 0x93#8, 0x26#8, 0x36#8, 0x3f#8, 0xf7#8, 0xcc#8, 0x34#8, 0xa5#8, 0xe5#8, 0xf1#8, 0x71#8, 0xd8#8, 0x31#8, 0x15#8,
  0x04#8, 0xc7#8, 0x23#8, 0xc3#8, 0x18#8, 0x96#8, 0x05#8, 0x9a#8, 0x07#8, 0x12#8, 0x80#8, 0xe2#8, 0xeb#8, 0x27#8, 0xb2#8, 0x75#8,
  0x09#8, 0x83#8, 0x2c#8, 0x1a#8, 0x1b#8, 0x6e#8, 0x5a#8, 0xa0#8, 0x52#8, 0x3b#8, 0xd6#8, 0xb3#8, 0x29#8, 0xe3#8, 0x2f#8, 0x84#8,
  0x53#8, 0xd1#8, 0x00#8, 0xed#8, 0x20#8, 0xfc#8, 0xb1#8, 0x5b#8, 0x6a#8, 0xcb#8, 0xbe#8, 0x39#8, 0x4a#8, 0x4c#8, 0x58#8, 0xcf#8,
  0xd0#8, 0xef#8, 0xaa#8, 0xfb#8, 0x43#8, 0x4d#8, 0x33#8, 0x85#8, 0x45#8, 0xf9#8, 0x02#8, 0x7f#8, 0x50#8, 0x3c#8, 0x9f#8, 0xa8#8,
  0x51#8, 0xa3#8, 0x40#8, 0x8f#8, 0x92#8, 0x9d#8, 0x38#8, 0xf5#8, 0xbc#8, 0xb6#8, 0xda#8, 0x21#8, 0x10#8, 0xff#8, 0xf3#8, 0xd2#8,
  0xcd#8, 0x0c#8, 0x13#8, 0xec#8, 0x5f#8, 0x97#8, 0x44#8, 0x17#8, 0xc4#8, 0xa7#8, 0x7e#8, 0x3d#8, 0x64#8, 0x5d#8, 0x19#8, 0x73#8,
  0x60#8, 0x81#8, 0x4f#8, 0xdc#8, 0x22#8, 0x2a#8, 0x90#8, 0x88#8, 0x46#8, 0xee#8, 0xb8#8, 0x14#8, 0xde#8, 0x5e#8, 0x0b#8, 0xdb#8,
  0xe0#8, 0x32#8, 0x3a#8, 0x0a#8, 0x49#8, 0x06#8, 0x24#8, 0x5c#8, 0xc2#8, 0xd3#8, 0xac#8, 0x62#8, 0x91#8, 0x95#8, 0xe4#8, 0x79#8,
  0xe7#8, 0xc8#8, 0x37#8, 0x6d#8, 0x8d#8, 0xd5#8, 0x4e#8, 0xa9#8, 0x6c#8, 0x56#8, 0xf4#8, 0xea#8, 0x65#8, 0x7a#8, 0xae#8, 0x08#8,
  0xba#8, 0x78#8, 0x25#8, 0x2e#8, 0x1c#8, 0xa6#8, 0xb4#8, 0xc6#8, 0xe8#8, 0xdd#8, 0x74#8, 0x1f#8, 0x4b#8, 0xbd#8, 0x8b#8, 0x8a#8,
  0x70#8, 0x3e#8, 0xb5#8, 0x66#8, 0x48#8, 0x03#8, 0xf6#8, 0x0e#8, 0x61#8, 0x35#8, 0x57#8, 0xb9#8, 0x86#8, 0xc1#8, 0x1d#8, 0x9e#8,
  0xe1#8, 0xf8#8, 0x98#8, 0x11#8, 0x69#8, 0xd9#8, 0x8e#8, 0x94#8, 0x9b#8, 0x1e#8, 0x87#8, 0xe9#8, 0xce#8, 0x55#8, 0x28#8, 0xdf#8,
  0x8c#8, 0xa1#8, 0x89#8, 0x0d#8, 0xbf#8, 0xe6#8, 0x42#8, 0x68#8, 0x41#8, 0x99#8, 0x2d#8, 0x0f#8, 0xb0#8, 0x54#8, 0xbb#8, 0x16#8]

/-- The inverse S-box as a literal table (a proof device). -/
def invSboxTable : List Byte := [
  0x52#8, 0x09#8, 0x6a#8, 0xd5#8, 0x30#8, 0x36#8, 0xa5#8, 0x38#8, 0xbf#8, 0x40#8, 0xa3#8, 0x9e#8, 0x81#8, 0xf3#8, 0xd7#8, 0xfb#8,
  0x7c#8, 0xe3#8, 0x39#8, 0x82#8, 0x9b#8, 0x2f#8, 0xff#8, 0x87#8, 0x34#8, 0x8e#8, 0x43#8, 0x44#8, 0xc4#8, 0xde#8, 0xe9#8, 0xcb#8,
  0x54#8, 0x7b#8, 0x94#8, 0x32#8, 0xa6#8, 0xc2#8, 0x23#8, 0x3d#8, 0xee#8, 0x4c#8, 0x95#8, 0x0b#8, 0x42#8, 0xfa#8, 0xc3#8, 0x4e#8,
  0x08#8, 0x2e#8, 0xa1#8, 0x66#8, 0x28#8, 0xd9#8, 0x24#8, 0xb2#8, 0x76#8, 0x5b#8, 0xa2#8, 0x49#8, 0x6d#8, 0x8b#8, 0xd1#8, 0x25#8,
  0x72#8, 0xf8#8, 0xf6#8, 0x64#8, 0x86#8, 0x68#8, 0x98#8, 0x16#8, 0xd4#8, 0xa4#8, 0x5c#8, 0xcc#8, 0x5d#8, 0x65#8, 0xb6#8, 0x92#8,
  0x6c#8, 0x70#8, 0x48#8, 0x50#8, 0xfd#8, 0xed#8, 0xb9#8, 0xda#8, 0x5e#8, 0x15#8, 0x46#8, 0x57#8, 0xa7#8, 0x8d#8, 0x9d#8, 0x84#8,
  0x90#8, 0xd8#8, 0xab#8, 0x00#8, 0x8c#8, 0xbc#8, 0xd3#8, 0x0a#8, 0xf7#8, 0xe4#8, 0x58#8, 0x05#8, 0xb8#8, 0xb3#8, 0x45#8, 0x06#8,
  0xd0#8, 0x2c#8, 0x1e#8, 0x8f#8, 0xca#8, 0x3f#8, 0x0f#8, 0x02#8, 0xc1#8, 0xaf#8, 0xbd#8, 0x03#8, 0x01#8, 0x13#8, 0x8a#8, 0x6b#8,
  0x3a#8, 0x91#8, 0x11#8, 0x41#8, 0x4f#8, 0x67#8, 0xdc#8, 0xea#8, 0x97#8, 0xf2#8, 0xcf#8, 0xce#8, 0xf0#8, 0xb4#8, 0xe6#8, 0x73#8,
  0x96#8, 0xac#8, 0x74#8, 0x22#8, 0xe7#8, 0xad#8, 0x35#8, 0x85#8, 0xe2#8, 0xf9#8, 0x37#8, 0xe8#8, 0x1c#8, 0x75#8, 0xdf#8, 0x6e#8,
  0x47#8, 0xf1#8, 0x1a#8, 0x71#8, 0x1d#8, 0x29#8, 0xc5#8, 0x89#8, 0x6f#8, 0xb7#8, 0x62#8, 0x0e#8, 0xaa#8, 0x18#8, 0xbe#8, 0x1b#8,
  0xfc#8, 0x56#8, 0x3e#8, 0x4b#8, 0xc6#8, 0xd2#8, 0x79#8, 0x20#8, 0x9a#8, 0xdb#8, 0xc0#8, 0xfe#8, 0x78#8, 0xcd#8, 0x5a#8, 0xf4#8,
  0x1f#8, 0xdd#8, 0xa8#8, 0x33#8, 0x88#8, 0x07#8, 0xc7#8, 0x31#8, 0xb1#8, 0x12#8, 0x10#8, 0x59#8, 0x27#8, 0x80#8, 0xec#8, 0x5f#8,
  0x60#8, 0x51#8, 0x7f#8, 0xa9#8, 0x19#8, 0xb5#8, 0x4a#8, 0x0d#8, 0x2d#8, 0xe5#8, 0x7a#8, 0x9f#8, 0x93#8, 0xc9#8, 0x9c#8, 0xef#8,
  0xa0#8, 0xe0#8, 0x3b#8, 0x4d#8, 0xae#8, 0x2a#8, 0xf5#8, 0xb0#8, 0xc8#8, 0xeb#8, 0xbb#8, 0x3c#8, 0x83#8, 0x53#8, 0x99#8, 0x61#8,
  0x17#8, 0x2b#8, 0x04#8, 0x7e#8, 0xba#8, 0x77#8, 0xd6#8, 0x26#8, 0xe1#8, 0x69#8, 0x14#8, 0x63#8, 0x55#8, 0x21#8, 0x0c#8, 0x7d#8]

/-- Table lookup (proof device). -/
def sboxT (b : Byte) : Byte := sboxTable.getD b.toNat 0#8
/-- Table lookup (proof device). -/
def invSboxT (b : Byte) : Byte := invSboxTable.getD b.toNat 0#8

theorem sbox_eq : ∀ b : Byte, sbox b = sboxT b := by decide +kernel
theorem invSbox_eq : ∀ b : Byte, invSbox b = invSboxT b := by decide +kernel

theorem invSbox_sbox (b : Byte) : invSbox (sbox b) = b := by
  rw [sbox_eq, invSbox_eq]; revert b; decide +kernel
theorem sbox_invSbox (b : Byte) : sbox (invSbox b) = b := by
  rw [sbox_eq, invSbox_eq]; revert b; decide +kernel

/-! ### xor normalisation -/

theorem xor_cancel_left {w} (a b : BitVec w) : a ^^^ (a ^^^ b) = b := by
  rw [← BitVec.xor_assoc, BitVec.xor_self, BitVec.zero_xor]

theorem xor_left_comm {w} (a b c : BitVec w) : a ^^^ (b ^^^ c) = b ^^^ (a ^^^ c) := by
  rw [← BitVec.xor_assoc, BitVec.xor_comm a b, BitVec.xor_assoc]

/-- Normalise an xor expression: right-associated, sorted, equal neighbours cancelled. -/
macro "xor_norm" : tactic =>
  `(tactic| simp only [BitVec.xor_assoc, BitVec.xor_comm, Fips197.xor_left_comm, BitVec.xor_self,
      Fips197.xor_cancel_left, BitVec.xor_zero, BitVec.zero_xor])

theorem xtimes_xor (a b : Byte) : xtimes (a ^^^ b) = xtimes a ^^^ xtimes b := by
  unfold xtimes
  rw [BitVec.getLsbD_xor, BitVec.shiftLeft_xor_distrib]
  cases a.getLsbD 7 <;> cases b.getLsbD 7 <;> simp <;> xor_norm

theorem xtimes_zero : xtimes 0#8 = 0#8 := by decide

theorem mul_02 (b : Byte) : mul 0x02#8 b = xtimes b := by
  simp [mul, List.range, List.range.loop, xtimes_zero]
theorem mul_03 (b : Byte) : mul 0x03#8 b = xtimes b ^^^ b := by
  simp [mul, List.range, List.range.loop, xtimes_zero]
theorem mul_09 (b : Byte) : mul 0x09#8 b = xtimes (xtimes (xtimes b)) ^^^ b := by
  simp [mul, List.range, List.range.loop, xtimes_zero]
theorem mul_0b (b : Byte) : mul 0x0b#8 b = xtimes (xtimes (xtimes b)) ^^^ xtimes b ^^^ b := by
  simp [mul, List.range, List.range.loop, xtimes_zero, xtimes_xor]
theorem mul_0d (b : Byte) : mul 0x0d#8 b = xtimes (xtimes (xtimes b)) ^^^ xtimes (xtimes b) ^^^ b := by
  simp [mul, List.range, List.range.loop, xtimes_zero, xtimes_xor]
theorem mul_0e (b : Byte) : mul 0x0e#8 b = xtimes (xtimes (xtimes b)) ^^^ xtimes (xtimes b) ^^^ xtimes b := by
  simp [mul, List.range, List.range.loop, xtimes_zero, xtimes_xor]

/-- Multiplication by a fixed element is linear. -/
theorem mul_xor (c a b : Byte) : mul c (a ^^^ b) = mul c a ^^^ mul c b := by
  unfold mul
  induction List.range 8 with
  | nil => simp
  | cons i l ih =>
    simp only [List.foldr, ih, xtimes_xor]
    cases c.getLsbD i <;> simp
    xor_norm

theorem mul_zero (c : Byte) : mul c 0#8 = 0#8 := by
  have := mul_xor c 0#8 0#8
  simpa using this

/-! ### the four round transformations are bijective, and their algebra -/

theorem invSubBytes_subBytes (s : State) : invSubBytes (subBytes s) = s := by
  funext r c; simp [invSubBytes, subBytes, invSbox_sbox]
theorem subBytes_invSubBytes (s : State) : subBytes (invSubBytes s) = s := by
  funext r c; simp [invSubBytes, subBytes, sbox_invSbox]
theorem invShiftRows_shiftRows (s : State) : invShiftRows (shiftRows s) = s := by
  funext r c; simp only [invShiftRows, shiftRows]; congr 1; omega
theorem shiftRows_invShiftRows (s : State) : shiftRows (invShiftRows s) = s := by
  funext r c; simp only [invShiftRows, shiftRows]; congr 1; omega
theorem subBytes_shiftRows (s : State) : subBytes (shiftRows s) = shiftRows (subBytes s) := rfl
theorem invSubBytes_invShiftRows (s : State) :
    invSubBytes (invShiftRows s) = invShiftRows (invSubBytes s) := rfl
theorem invSubBytes_shiftRows (s : State) :
    invSubBytes (shiftRows s) = shiftRows (invSubBytes s) := rfl

theorem fin4_add (r : Fin 4) : r + 1 + 1 = r + 2 ∧ r + 1 + 2 = r + 3 ∧ r + 1 + 3 = r ∧
    r + 2 + 1 = r + 3 ∧ r + 2 + 2 = r ∧ r + 2 + 3 = r + 1 ∧
    r + 3 + 1 = r ∧ r + 3 + 2 = r + 1 ∧ r + 3 + 3 = r + 2 := by revert r; decide

theorem invMixColumns_mixColumns (s : State) : invMixColumns (mixColumns s) = s := by
  funext r c
  obtain ⟨h1, h2, h3, h4, h5, h6, h7, h8, h9⟩ := fin4_add r
  simp only [invMixColumns, mixColumns, h1, h2, h3, h4, h5, h6, h7, h8, h9,
    mul_02, mul_03, mul_09, mul_0b, mul_0d, mul_0e, xtimes_xor]
  generalize s r c = a; generalize s (r + 1) c = b; generalize s (r + 2) c = d; generalize s (r + 3) c = e
  generalize ha : xtimes a = a1; generalize xtimes a1 = a2; generalize xtimes a2 = a3; generalize xtimes a3 = a4
  generalize hb : xtimes b = b1; generalize xtimes b1 = b2; generalize xtimes b2 = b3; generalize xtimes b3 = b4
  generalize hd : xtimes d = d1; generalize xtimes d1 = d2; generalize xtimes d2 = d3; generalize xtimes d3 = d4
  generalize he : xtimes e = e1; generalize xtimes e1 = e2; generalize xtimes e2 = e3; generalize xtimes e3 = e4
  clear ha hb hd he
  xor_norm
theorem mixColumns_invMixColumns (s : State) : mixColumns (invMixColumns s) = s := by
  funext r c
  obtain ⟨h1, h2, h3, h4, h5, h6, h7, h8, h9⟩ := fin4_add r
  simp only [invMixColumns, mixColumns, h1, h2, h3, h4, h5, h6, h7, h8, h9,
    mul_02, mul_03, mul_09, mul_0b, mul_0d, mul_0e, xtimes_xor]
  generalize s r c = a; generalize s (r + 1) c = b; generalize s (r + 2) c = d; generalize s (r + 3) c = e
  generalize ha : xtimes a = a1; generalize xtimes a1 = a2; generalize xtimes a2 = a3; generalize xtimes a3 = a4
  generalize hb : xtimes b = b1; generalize xtimes b1 = b2; generalize xtimes b2 = b3; generalize xtimes b3 = b4
  generalize hd : xtimes d = d1; generalize xtimes d1 = d2; generalize xtimes d2 = d3; generalize xtimes d3 = d4
  generalize he : xtimes e = e1; generalize xtimes e1 = e2; generalize xtimes e2 = e3; generalize xtimes e3 = e4
  clear ha hb hd he
  xor_norm

/-- Bitwise sum of states. -/
def State.add (a b : State) : State := fun r c => a r c ^^^ b r c

theorem mixColumns_add (a b : State) : mixColumns (a.add b) = (mixColumns a).add (mixColumns b) := by
  funext r c; simp only [mixColumns, State.add, mul_xor]; xor_norm
theorem invMixColumns_add (a b : State) :
    invMixColumns (a.add b) = (invMixColumns a).add (invMixColumns b) := by
  funext r c; simp only [invMixColumns, State.add, mul_xor]; xor_norm
theorem shiftRows_add (a b : State) : shiftRows (a.add b) = (shiftRows a).add (shiftRows b) := rfl
theorem add_self_cancel (a b : State) : (a.add b).add b = a := by
  funext r c; simp [State.add, BitVec.xor_assoc]

/-- The round key as a state: `addRoundKey k s = s.add (keyState k)`. -/
def keyState (k : Fin 4 → Word) : State := fun r c => k c r
theorem addRoundKey_eq (k : Fin 4 → Word) (s : State) : addRoundKey k s = s.add (keyState k) := rfl

theorem ofBytes_toBytes (s : State) : State.ofBytes s.toBytes = s := by
  funext r c
  simp only [State.ofBytes, State.toBytes, Vector.getElem_ofFn]
  congr <;> omega
theorem toBytes_ofBytes (v : Vector Byte 16) : (State.ofBytes v).toBytes = v := by
  apply Vector.ext
  intro i hi
  simp only [State.ofBytes, State.toBytes, Vector.getElem_ofFn]
  congr 1; omega
theorem ofBytes_inj {v w : Vector Byte 16} (h : State.ofBytes v = State.ofBytes w) : v = w := by
  rw [← toBytes_ofBytes v, h, toBytes_ofBytes]

end Fips197
