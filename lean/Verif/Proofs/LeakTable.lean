import Verif.Proofs.LeakLib
import Verif.Model.LeakTable
/-! The table-based implementation with leakage: it computes what the model does, and its trace determines the state of every
round. -/
namespace Aes.Leak.Table
open Rust
open Aes.Table (Block)

/-! ### Results -/

section words
variable {w : Nat}
theorem out_and (a b : BitVec w) : (and a b).out = .ok (a &&& b) := rfl
theorem out_or (a b : BitVec w) : (or a b).out = .ok (a ||| b) := rfl
theorem out_xor (a b : BitVec w) : (xor a b).out = .ok (a ^^^ b) := rfl
theorem out_not (a : BitVec w) : (Leak.not a).out = .ok (~~~a) := rfl
theorem out_shl (a : BitVec w) (k : Nat) : (shl a k).out = .ok (a <<< k) := rfl
theorem out_shr (a : BitVec w) (k : Nat) : (shr a k).out = .ok (a >>> k) := rfl
theorem out_rotr (a : BitVec w) (k : Nat) : (rotr a k).out = .ok (a.rotateRight k) := rfl
theorem out_cast (v : Nat) (a : BitVec w) : (cast v a).out = .ok (a.setWidth v) := rfl
theorem out_eqw (a b : BitVec w) : (eqw a b).out = .ok (a == b) := rfl
end words
theorem out_te0 (x : U32) : (te0 x).out = .ok (Aes.Table.te0 x) := rfl
theorem out_te1 (x : U32) : (te1 x).out = .ok (Aes.Table.te1 x) := rfl
theorem out_te2 (x : U32) : (te2 x).out = .ok (Aes.Table.te2 x) := rfl
theorem out_te3 (x : U32) : (te3 x).out = .ok (Aes.Table.te3 x) := rfl
theorem out_td0 (x : U32) : (td0 x).out = .ok (Aes.Table.td0 x) := rfl
theorem out_td1 (x : U32) : (td1 x).out = .ok (Aes.Table.td1 x) := rfl
theorem out_td2 (x : U32) : (td2 x).out = .ok (Aes.Table.td2 x) := rfl
theorem out_td3 (x : U32) : (td3 x).out = .ok (Aes.Table.td3 x) := rfl
theorem out_te4_0 (x : U32) : (te4_0 x).out = .ok (Aes.Table.te4_0 x) := rfl
theorem out_te4_1 (x : U32) : (te4_1 x).out = .ok (Aes.Table.te4_1 x) := rfl
theorem out_te4_2 (x : U32) : (te4_2 x).out = .ok (Aes.Table.te4_2 x) := rfl
theorem out_te4_3 (x : U32) : (te4_3 x).out = .ok (Aes.Table.te4_3 x) := rfl
theorem out_td4_0 (x : U32) : (td4_0 x).out = .ok (Aes.Table.td4_0 x) := rfl
theorem out_td4_1 (x : U32) : (td4_1 x).out = .ok (Aes.Table.td4_1 x) := rfl
theorem out_td4_2 (x : U32) : (td4_2 x).out = .ok (Aes.Table.td4_2 x) := rfl
theorem out_td4_3 (x : U32) : (td4_3 x).out = .ok (Aes.Table.td4_3 x) := rfl

theorem out_enc (s k : Block) : (enc s k).out = .ok (Aes.Table.enc s k) := by
  simp only [enc, out_bind, out_shr, out_te0, out_te1, out_te2, out_te3, out_xor, ok_bind]; rfl
theorem out_dec (s k : Block) : (dec s k).out = .ok (Aes.Table.dec s k) := by
  simp only [dec, out_bind, out_shr, out_td0, out_td1, out_td2, out_td3, out_xor, ok_bind]; rfl
theorem out_enc_last (s k : Block) : (enc_last s k).out = .ok (Aes.Table.enc_last s k) := by
  simp only [enc_last, out_bind, out_shr, out_te4_0, out_te4_1, out_te4_2, out_te4_3, out_xor, ok_bind]; rfl
theorem out_dec_last (s k : Block) : (dec_last s k).out = .ok (Aes.Table.dec_last s k) := by
  simp only [dec_last, out_bind, out_shr, out_td4_0, out_td4_1, out_td4_2, out_td4_3, out_xor, ok_bind]; rfl
theorem out_mc (s : Block) : (mc s).out = .ok (Aes.Table.mc s) := by
  simp only [mc, out_bind, out_shr, out_td4_3, out_te0, out_te1, out_te2, out_te3, out_xor, ok_bind]; rfl
theorem out_imc (s : Block) : (imc s).out = .ok (Aes.Table.imc s) := by
  simp only [imc, out_bind, out_shr, out_te4_3, out_td0, out_td1, out_td2, out_td3, out_xor, ok_bind]; rfl
theorem out_load (s : List U8) (i : Nat) : (load_u32_be s i).out = Aes.Table.load_u32_be s i := by
  simp only [load_u32_be, Aes.Table.load_u32_be, out_bind, out_sidx, out_cast, out_shl, out_or, ok_bind]; rfl
theorem out_store (s : List U8) (x : U32) : (store_u32_be s x).out = Aes.Table.store_u32_be s x := by
  simp only [store_u32_be, Aes.Table.store_u32_be, out_bind, out_supd, out_cast, out_shr, ok_bind]
theorem out_new (b : Vector U8 16) : (new b).out = Aes.Table.new b := by
  simp only [new, Aes.Table.new, out_bind, out_load]; rfl
theorem out_store_to (x : Block) (d : List U8) : (store_to x d).out = Aes.Table.store_to x d := by
  simp only [store_to, Aes.Table.store_to, out_bind, out_assert, out_store, out_onFrom (out_store · x.w1),
    out_onFrom (out_store · x.w2), out_onFrom (out_store · x.w3)]
theorem out_is_zero (x : Block) : (is_zero x).out = .ok (Aes.Table.is_zero x) := by
  simp only [is_zero, out_bind, out_or, out_eqw, ok_bind]; rfl
theorem out_eq (x y : Block) : (eq x y).out = .ok (decide (x = y)) := by
  unfold eq
  rw [out_andAlso (out_eqw _ _) (out_andAlso (out_eqw _ _) (out_andAlso (out_eqw _ _) (out_eqw _ _)))]
  refine congrArg Except.ok ?_
  rw [Bool.eq_iff_iff]
  cases x; cases y
  simp
theorem out_sub_word (x : U32) : (sub_word x).out = .ok (Aes.Table.sub_word x) := by
  simp only [sub_word, out_bind, out_shr, out_te4_0, out_te4_1, out_te4_2, out_te4_3, out_or, ok_bind]; rfl
theorem out_keyexp_128 (r : U32) (k : Block) : (keyexp_128 r k).out = .ok (Aes.Table.keyexp_128 r k) := by
  simp only [keyexp_128, out_bind, out_sub_word, out_xor, ok_bind]; rfl
theorem out_keyexp_256_1 (r : U32) (k l : Block) : (keyexp_256_1 r k l).out = .ok (Aes.Table.keyexp_256_1 r k l) := by
  simp only [keyexp_256_1, out_bind, out_sub_word, out_xor, ok_bind]; rfl
theorem out_keyexp_256_2 (k l : Block) : (keyexp_256_2 k l).out = .ok (Aes.Table.keyexp_256_2 k l) := by
  simp only [keyexp_256_2, out_bind, out_sub_word, out_rotr, out_xor, ok_bind]; rfl
theorem out_idx6_0 (a : Arr) (k : Vector U32 6) : (idx a k 0).out = .ok k[0] := rfl
theorem out_idx6_1 (a : Arr) (k : Vector U32 6) : (idx a k 1).out = .ok k[1] := rfl
theorem out_idx6_2 (a : Arr) (k : Vector U32 6) : (idx a k 2).out = .ok k[2] := rfl
theorem out_idx6_3 (a : Arr) (k : Vector U32 6) : (idx a k 3).out = .ok k[3] := rfl
theorem out_idx6_4 (a : Arr) (k : Vector U32 6) : (idx a k 4).out = .ok k[4] := rfl
theorem out_idx6_5 (a : Arr) (k : Vector U32 6) : (idx a k 5).out = .ok k[5] := rfl
theorem out_keyexp_192 (r : U32) (k : Vector U32 6) : (keyexp_192 r k).out = .ok (Aes.Table.keyexp_192 r k) := by
  simp only [keyexp_192, out_bind, out_idx6_0, out_idx6_1, out_idx6_2, out_idx6_3, out_idx6_4, out_idx6_5, out_sub_word, out_xor, ok_bind]; rfl
theorem out_keygen_128 (k : Vector U8 16) : (keygen_128 k).out = Aes.Table.keygen_128 k := by
  simp only [keygen_128, Aes.Table.keygen_128, from_bytes, Aes.Table.from_bytes, out_bind, out_new, out_keyexp_128, ok_bind]; rfl
theorem out_keygen_192 (k : Vector U8 24) : (keygen_192 k).out = Aes.Table.keygen_192 k := by
  simp only [keygen_192, Aes.Table.keygen_192, out_bind, out_load, out_idx6_0, out_idx6_1, out_idx6_2, out_idx6_3, out_idx6_4, out_idx6_5,
    out_keyexp_192, ok_bind]; rfl
theorem out_unwrap {ε α : Type} (x : Except ε α) : (Leak.unwrap x).out = Rust.unwrap x := by
  cases x <;> rfl
theorem out_keygen_256 (k : Vector U8 32) : (keygen_256 k).out = Aes.Table.keygen_256 k := by
  simp only [keygen_256, Aes.Table.keygen_256, out_bind, out_sliceTo, out_sliceFrom, out_unwrap,
    out_try_from_slice (f := from_bytes) (g := Aes.Table.from_bytes) out_new, out_keyexp_256_1, out_keyexp_256_2, ok_bind]; rfl

instance : ErasesBlock Block where
  new := out_new
  from_bytes := out_new
  store_to := out_store_to
  zero := rfl
  is_zero := out_is_zero
  eq := out_eq
  bitand _ _ := rfl
  bitor _ _ := rfl
  bitxor _ _ := rfl
  not _ := rfl
  enc := out_enc
  dec := out_dec
  enc_last := out_enc_last
  dec_last := out_dec_last
  pre := trivial
  mc := out_mc
  imc := out_imc
  keygen_128 := out_keygen_128
  keygen_192 := out_keygen_192
  keygen_256 := out_keygen_256

/-! ### Leakage: the trace of a round determines its input -/

theorem trace_bind_ok {α β : Type} {m : L α} {f : α → L β} {a : α} (h : m.out = .ok a) :
    (m >>= f).trace = m.trace ++ (f a).trace := by
  show (L.bind m f).trace = _
  unfold L.bind
  rw [h]

/-- The table look-ups of a trace, in order. -/
def reads : List Event → List Nat
  | [] => []
  | .read _ i :: l => i :: reads l
  | _ :: l => reads l

/-- Byte `i` (from the low end) of a word. -/
def byte (x : U32) (i : Nat) : Nat := ((x >>> i).setWidth 8).toNat

theorem reads_enc (s k : Block) : reads (enc s k).trace =
    [byte s.w0 24, byte s.w1 16, byte s.w2 8, byte s.w3 0, byte s.w1 24, byte s.w2 16, byte s.w3 8, byte s.w0 0,
     byte s.w2 24, byte s.w3 16, byte s.w0 8, byte s.w1 0, byte s.w3 24, byte s.w0 16, byte s.w1 8, byte s.w2 0] := rfl
theorem reads_enc_last (s k : Block) : reads (enc_last s k).trace =
    [byte s.w0 24, byte s.w1 16, byte s.w2 8, byte s.w3 0, byte s.w1 24, byte s.w2 16, byte s.w3 8, byte s.w0 0,
     byte s.w2 24, byte s.w3 16, byte s.w0 8, byte s.w1 0, byte s.w3 24, byte s.w0 16, byte s.w1 8, byte s.w2 0] := rfl
theorem length_enc (s k : Block) : (enc s k).trace.length = 60 := rfl

theorem reads_append (l l' : List Event) : reads (l ++ l') = reads l ++ reads l' := by
  induction l with
  | nil => rfl
  | cons e l ih => cases e <;> simp [reads, ih]

theorem word_of_bytes {x y : U32} (h0 : byte x 0 = byte y 0) (h1 : byte x 8 = byte y 8) (h2 : byte x 16 = byte y 16)
    (h3 : byte x 24 = byte y 24) : x = y := by
  have key : ∀ (i : Nat) (j : Nat), j < 8 → byte x i = byte y i → x.getLsbD (i + j) = y.getLsbD (i + j) := by
    intro i j hj h
    have h' := congrArg (fun v => BitVec.getLsbD v j) (BitVec.eq_of_toNat_eq h)
    simpa [hj] using h'
  apply BitVec.eq_of_getLsbD_eq
  intro i hi
  rcases (by omega : i < 8 ∨ 8 ≤ i ∧ i < 16 ∨ 16 ≤ i ∧ i < 24 ∨ 24 ≤ i) with h | h | h | h
  · have := key 0 i h h0
    simpa using this
  · have := key 8 (i - 8) (by omega) h1
    rwa [Nat.add_sub_cancel' h.1] at this
  · have := key 16 (i - 16) (by omega) h2
    rwa [Nat.add_sub_cancel' h.1] at this
  · have := key 24 (i - 24) (by omega) h3
    rwa [Nat.add_sub_cancel' h] at this

theorem block_of_bytes {s s' : Block}
    (h : [byte s.w0 24, byte s.w1 16, byte s.w2 8, byte s.w3 0, byte s.w1 24, byte s.w2 16, byte s.w3 8, byte s.w0 0,
     byte s.w2 24, byte s.w3 16, byte s.w0 8, byte s.w1 0, byte s.w3 24, byte s.w0 16, byte s.w1 8, byte s.w2 0] =
     [byte s'.w0 24, byte s'.w1 16, byte s'.w2 8, byte s'.w3 0, byte s'.w1 24, byte s'.w2 16, byte s'.w3 8, byte s'.w0 0,
     byte s'.w2 24, byte s'.w3 16, byte s'.w0 8, byte s'.w1 0, byte s'.w3 24, byte s'.w0 16, byte s'.w1 8, byte s'.w2 0]) :
    s = s' := by
  simp only [List.cons.injEq] at h
  obtain ⟨a24, b16, c8, d0, b24, c16, d8, a0, c24, d16, a8, b0, d24, a16, b8, c0, _⟩ := h
  cases s; cases s'
  simp only [Aes.Table.Block.mk.injEq]
  exact ⟨word_of_bytes a0 a8 a16 a24, word_of_bytes b0 b8 b16 b24, word_of_bytes c0 c8 c16 c24, word_of_bytes d0 d8 d16 d24⟩

theorem enc_trace_inj {s s' k k' : Block} (h : (enc s k).trace = (enc s' k').trace) : s = s' := by
  have := congrArg reads h
  rw [reads_enc, reads_enc] at this
  exact block_of_bytes this
theorem enc_last_trace_inj {s s' k k' : Block} (h : (enc_last s k).trace = (enc_last s' k').trace) : s = s' := by
  have := congrArg reads h
  rw [reads_enc_last, reads_enc_last] at this
  exact block_of_bytes this
theorem reads_dec (s k : Block) : reads (dec s k).trace =
    [byte s.w0 24, byte s.w3 16, byte s.w2 8, byte s.w1 0, byte s.w1 24, byte s.w0 16, byte s.w3 8, byte s.w2 0,
     byte s.w2 24, byte s.w1 16, byte s.w0 8, byte s.w3 0, byte s.w3 24, byte s.w2 16, byte s.w1 8, byte s.w0 0] := rfl
theorem reads_dec_last (s k : Block) : reads (dec_last s k).trace =
    [byte s.w0 24, byte s.w3 16, byte s.w2 8, byte s.w1 0, byte s.w1 24, byte s.w0 16, byte s.w3 8, byte s.w2 0,
     byte s.w2 24, byte s.w1 16, byte s.w0 8, byte s.w3 0, byte s.w3 24, byte s.w2 16, byte s.w1 8, byte s.w0 0] := rfl
theorem block_of_bytes_dec {s s' : Block}
    (h : [byte s.w0 24, byte s.w3 16, byte s.w2 8, byte s.w1 0, byte s.w1 24, byte s.w0 16, byte s.w3 8, byte s.w2 0,
     byte s.w2 24, byte s.w1 16, byte s.w0 8, byte s.w3 0, byte s.w3 24, byte s.w2 16, byte s.w1 8, byte s.w0 0] =
     [byte s'.w0 24, byte s'.w3 16, byte s'.w2 8, byte s'.w1 0, byte s'.w1 24, byte s'.w0 16, byte s'.w3 8, byte s'.w2 0,
     byte s'.w2 24, byte s'.w1 16, byte s'.w0 8, byte s'.w3 0, byte s'.w3 24, byte s'.w2 16, byte s'.w1 8, byte s'.w0 0]) : s = s' := by
  simp only [List.cons.injEq, and_true] at h
  obtain ⟨a0, d1, c2, b3, b0, a1, d2, c3, c0, b1, a2, d3, d0, c1, b2, a3⟩ := h
  cases s; cases s'
  simp only [Aes.Table.Block.mk.injEq]
  exact ⟨word_of_bytes a3 a2 a1 a0, word_of_bytes b3 b2 b1 b0, word_of_bytes c3 c2 c1 c0, word_of_bytes d3 d2 d1 d0⟩
theorem dec_trace_inj {s s' k k' : Block} (h : (dec s k).trace = (dec s' k').trace) : s = s' := by
  have := congrArg reads h
  rw [reads_dec, reads_dec] at this
  exact block_of_bytes_dec this
theorem dec_last_trace_inj {s s' k k' : Block} (h : (dec_last s k).trace = (dec_last s' k').trace) : s = s' := by
  have := congrArg reads h
  rw [reads_dec_last, reads_dec_last] at this
  exact block_of_bytes_dec this
theorem xor_cancel {a x y : U32} (h : a ^^^ x = a ^^^ y) : x = y := by
  have := congrArg (a ^^^ ·) h
  simpa [← BitVec.xor_assoc] using this
theorem enc_key_inj {s k k' : Block} (h : Aes.Table.enc s k = Aes.Table.enc s k') : k = k' := by
  simp only [Aes.Table.enc, Aes.Table.Block.mk.injEq] at h
  obtain ⟨h0, h1, h2, h3⟩ := h
  cases k; cases k'
  simp only [Aes.Table.Block.mk.injEq]
  exact ⟨xor_cancel h0, xor_cancel h1, xor_cancel h2, xor_cancel h3⟩

/-- The trace of the rounds determines the state before the first one and the round keys (`p`: what happens before the last
round). -/
theorem rounds_inj {l l' : Block} {p : List Event} (ks ks' : List Block) (hl : ks.length = ks'.length) (s s' : Block)
    (h : (forEach ks enc s).trace ++ (p ++ (enc_last (ks.foldl Aes.Table.enc s) l).trace) =
      (forEach ks' enc s').trace ++ (p ++ (enc_last (ks'.foldl Aes.Table.enc s') l').trace)) : s = s' ∧ ks = ks' := by
  induction ks generalizing ks' s s' with
  | nil =>
    cases ks' with
    | cons _ _ => simp at hl
    | nil =>
      have h' := List.append_cancel_left (List.append_cancel_left (as := [Event.branch false]) h)
      exact ⟨enc_last_trace_inj h', rfl⟩
  | cons k ks ih =>
    cases ks' with
    | nil => simp at hl
    | cons k' ks' =>
      have hl' : ks.length = ks'.length := by simpa using hl
      have hf : ∀ k ks s, (forEach (k :: ks) enc s).trace = Event.branch true :: ((enc s k).trace ++ (forEach ks enc (Aes.Table.enc s k)).trace) := by
        intro k ks s
        rw [forEach, trace_bind_ok (a := ()) rfl, trace_bind_ok (out_enc s k)]
        rfl
      rw [hf, hf, List.cons_append, List.cons_append, List.append_assoc, List.append_assoc] at h
      obtain ⟨_, h⟩ := List.cons.inj h
      obtain ⟨h1, h2⟩ := List.append_inj h (by rw [length_enc, length_enc])
      have hs := enc_trace_inj h1
      subst hs
      obtain ⟨h3, h4⟩ := ih ks' hl' _ _ h2
      exact ⟨rfl, by rw [enc_key_inj h3, h4]⟩

/-- The trace of `chain_enc` with at least one key. -/
theorem trace_chain_enc (k : Block) (ks : List Block) (x : Block) : (chain_enc x (k :: ks)).trace =
    [.branch true, .branch true, .read .data 0, .op .xor, .op .xor, .op .xor, .op .xor, .branch true] ++
      (forEach ks enc (Aes.Table.bitxor x k)).trace := by
  show (chain_enc_std x (k :: ks)).trace = _
  unfold chain_enc_std
  rw [trace_bind_ok (a := ()) rfl, trace_bind_ok (a := k) rfl, trace_bind_ok (a := Aes.Table.bitxor x k) rfl,
    trace_bind_ok (a := ks) (by simp [sliceFrom])]
  have : (sliceFrom (k :: ks) 1).trace = [.branch true] := by simp [sliceFrom]
  rw [this]
  rfl
/-- The trace of `encrypt_block` with at least one round. -/
theorem trace_encrypt {nr : Nat} (e : AesEnc Block nr) (x : Block) (k : Block) (ks : List Block) (l : Block)
    (h : e.round_keys.toList = k :: ks ++ [l]) : (encrypt id e x).trace =
    [.branch true, .branch true, .branch true, .read .data 0, .op .xor, .op .xor, .op .xor, .op .xor, .branch true] ++
      ((forEach ks enc (Aes.Table.bitxor x k)).trace ++
      ([.branch true, .read .data nr] ++ (enc_last (ks.foldl Aes.Table.enc (Aes.Table.bitxor x k)) l).trace)) := by
  have hn : nr = (k :: ks).length := by
    have := congrArg List.length h
    simp at this
    simpa using this
  have hl : e.round_keys[nr] = l := by
    have : e.round_keys.toList[nr]? = some l := by rw [h, hn]; simp
    simpa using this
  unfold encrypt
  rw [Vector.map_id, trace_bind_ok (a := k :: ks) (by
    simp only [sliceTo, h]
    rw [if_pos (by rw [hn]; simp), hn, List.take_left' rfl])]
  rw [trace_bind_ok (a := ks.foldl Aes.Table.enc (Aes.Table.bitxor x k)), trace_chain_enc, trace_bind_ok (a := l)]
  · have : (sliceTo e.round_keys.toList nr).trace = [.branch true] := by simp [sliceTo]
    rw [this]
    have : (idx .data e.round_keys nr).trace = [.branch true, .read .data nr] := by simp [idx]
    rw [this]
    simp
    rfl
  · simp [idx, hl]
  · rw [out_chain_enc]
    show Aes.chain_enc_std x (k :: ks) = _
    simp [Aes.chain_enc_std, Rust.assert, Rust.sidx, Rust.sliceFrom]
    rfl

/-- Equal traces of `encrypt_block` on the same block: all round keys but the last are equal. -/
theorem encrypt_inj {nr : Nat} (hn : 0 < nr) (e e' : AesEnc Block nr) (x : Block)
    (h : (encrypt id e x).trace = (encrypt id e' x).trace) (i : Nat) (hi : i < nr) : e.round_keys[i] = e'.round_keys[i] := by
  have split : ∀ e : AesEnc Block nr, ∃ k ks l, e.round_keys.toList = k :: ks ++ [l] := by
    intro e
    have hl : e.round_keys.toList.length = nr + 1 := by simp
    match hm : e.round_keys.toList with
    | [] => rw [hm] at hl; simp at hl
    | k :: m =>
      rw [hm] at hl
      have hne : m ≠ [] := by intro h; subst h; simp at hl; omega
      exact ⟨k, m.dropLast, m.getLast hne, by simp [List.dropLast_concat_getLast]⟩
  obtain ⟨k, ks, l, he⟩ := split e
  obtain ⟨k', ks', l', he'⟩ := split e'
  rw [trace_encrypt e x k ks l he, trace_encrypt e' x k' ks' l' he'] at h
  have hlen : ks.length = ks'.length := by
    have h1 := congrArg List.length he
    have h2 := congrArg List.length he'
    simp at h1 h2
    omega
  have hr := rounds_inj ks ks' hlen _ _ (List.append_cancel_left h)
  have hk : k = k' := by
    have h0 := hr.1
    simp only [Aes.Table.bitxor, Aes.Table.Block.mk.injEq] at h0
    cases k; cases k'
    simp only [Aes.Table.Block.mk.injEq]
    exact ⟨xor_cancel h0.1, xor_cancel h0.2.1, xor_cancel h0.2.2.1, xor_cancel h0.2.2.2⟩
  have hk2 := hr.2
  subst hk hk2
  have hlen2 : i < (k :: ks).length := by
    have h1 := congrArg List.length he
    simp at h1 ⊢
    omega
  have g : e.round_keys.toList[i]? = e'.round_keys.toList[i]? := by
    rw [he, he', List.getElem?_append_left hlen2, List.getElem?_append_left hlen2]
  have hi' : i < nr + 1 := by omega
  simpa [hi'] using g

theorem same_load {s s' : List U8} (h : SameLen s s') (i : Nat) : Same Any (load_u32_be s i) (load_u32_be s' i) := by
  unfold load_u32_be
  repeat' first
    | exact Same.emit _ _
    | refine Same.bind_any (Same.sidx h _) fun _ _ => ?_
    | refine Same.bind_any (Same.emit _ _) fun _ _ => ?_
theorem same_new (b b' : Vector U8 16) : Same Any (new b) (new b') := by
  have h : SameLen b.toList b'.toList := by simp [SameLen]
  unfold new
  iterate 4 refine Same.bind_any (same_load h _) fun _ _ => ?_
  exact Same.pure trivial
theorem same_store {s s' : List U8} (h : SameLen s s') (x x' : U32) : Same SameLen (store_u32_be s x) (store_u32_be s' x') := by
  unfold store_u32_be
  iterate 3
    refine Same.bind_any (Same.emit _ _) fun _ _ => Same.bind_any (Same.emit _ _) fun _ _ => ?_
    refine Same.bind (Same.supd h _ _ _) fun _ _ h => ?_
  exact Same.bind_any (Same.emit _ _) fun _ _ => Same.supd (by assumption) _ _ _
theorem same_store_to (x x' : Block) (d d' : List U8) (h : SameLen d d') : Same SameLen (store_to x d) (store_to x' d') := by
  have h' : d.length = d'.length := h
  unfold store_to
  rw [h']
  refine Same.bind_any (Same.assert _) fun _ _ => ?_
  refine Same.bind (same_store h _ _) fun _ _ h => ?_
  refine Same.bind (Same.onFrom h 4 fun _ _ h => same_store h _ _) fun _ _ h => ?_
  refine Same.bind (Same.onFrom h 8 fun _ _ h => same_store h _ _) fun _ _ h => ?_
  exact Same.onFrom h 12 fun _ _ h => same_store h _ _

/-- Conversions, stores and bit operators of the table-based implementation leak nothing. -/
instance : QuietData Block where
  new := same_new
  from_bytes := same_new
  store_to := same_store_to
  is_zero _ _ := Same.bind_any (Same.emit _ _) fun _ _ => Same.bind_any (Same.emit _ _) fun _ _ => Same.bind_any (Same.emit _ _) fun _ _ =>
    Same.emit _ _
  bitand _ _ _ _ := Same.bind_any (Same.emit _ _) fun _ _ => Same.bind_any (Same.emit _ _) fun _ _ => Same.bind_any (Same.emit _ _) fun _ _ =>
    Same.bind_any (Same.emit _ _) fun _ _ => Same.pure trivial
  bitor _ _ _ _ := Same.bind_any (Same.emit _ _) fun _ _ => Same.bind_any (Same.emit _ _) fun _ _ => Same.bind_any (Same.emit _ _) fun _ _ =>
    Same.bind_any (Same.emit _ _) fun _ _ => Same.pure trivial
  bitxor _ _ _ _ := Same.bind_any (Same.emit _ _) fun _ _ => Same.bind_any (Same.emit _ _) fun _ _ => Same.bind_any (Same.emit _ _) fun _ _ =>
    Same.bind_any (Same.emit _ _) fun _ _ => Same.pure trivial
  not _ _ := Same.bind_any (Same.emit _ _) fun _ _ => Same.bind_any (Same.emit _ _) fun _ _ => Same.bind_any (Same.emit _ _) fun _ _ =>
    Same.bind_any (Same.emit _ _) fun _ _ => Same.pure trivial

end Aes.Leak.Table
