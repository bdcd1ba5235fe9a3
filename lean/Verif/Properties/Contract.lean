import Verif.Proofs.Over
import Verif.Properties.Client
/-!
C57: what src/lib.rs needs of a backend. A backend (an `AesBlock` module) that meets the contract below makes the whole crate AES,
whatever it looks like inside. The contract is met by exactly the targets that are right, and the two that are not come to meet
it when a few lines are changed.
-/
namespace Aes
open Rust AesSpec Fips197 AesVec AesBlock Client

/-- What src/lib.rs and the default wide modules need of an `AesBlock` module, on bytes. -/
structure Contract (B : Type) [AesBlock B] : Prop where
  /-- `new` and `From<[u8; 16]>` make the value with the given bytes. -/
  new : ∀ b : Bytes 16, ∃ x : B, AesVec.new b = .ok x ∧ from_bytes b = .ok x ∧ into_bytes x = .ok b
  /-- Every value is the one made of its bytes. -/
  bytes : ∀ x : B, ∃ b : Bytes 16, into_bytes x = .ok b ∧ from_bytes b = .ok x
  /-- `store_to` writes the bytes to the front of a slice that is long enough, and panics otherwise. -/
  store_to : ∀ (x : B) (b : Bytes 16) (dst : List U8), into_bytes x = .ok b →
    AesVec.store_to x dst = if 16 ≤ dst.length then .ok (b.toList ++ dst.drop 16) else .error .panic
  zero : into_bytes (zero : B) = .ok (zeroB 16)
  is_zero : ∀ (x : B) (b : Bytes 16), into_bytes x = .ok b → is_zero x = decide (b = zeroB 16)
  eq : ∀ (x y : B) (a b : Bytes 16), into_bytes x = .ok a → into_bytes y = .ok b → AesVec.eq x y = decide (a = b)
  and : ∀ (x y : B) (a b : Bytes 16), into_bytes x = .ok a → into_bytes y = .ok b → into_bytes (bitand x y) = .ok (andB a b)
  or : ∀ (x y : B) (a b : Bytes 16), into_bytes x = .ok a → into_bytes y = .ok b → into_bytes (bitor x y) = .ok (orB a b)
  xor : ∀ (x y : B) (a b : Bytes 16), into_bytes x = .ok a → into_bytes y = .ok b → into_bytes (bitxor x y) = .ok (xorB a b)
  not : ∀ (x : B) (a : Bytes 16), into_bytes x = .ok a → into_bytes (AesVec.not x) = .ok (notB a)
  enc : ∀ (x y : B) (a b : Bytes 16), into_bytes x = .ok a → into_bytes y = .ok b → into_bytes (enc x y) = .ok (encRound a b)
  enc_last : ∀ (x y : B) (a b : Bytes 16), into_bytes x = .ok a → into_bytes y = .ok b →
    into_bytes (enc_last x y) = .ok (encLastRound a b)
  dec : ∀ (x y : B) (a b : Bytes 16), into_bytes x = .ok a → into_bytes y = .ok b → into_bytes (dec x y) = .ok (decRound a b)
  dec_last : ∀ (x y : B) (a b : Bytes 16), into_bytes x = .ok a → into_bytes y = .ok b →
    into_bytes (dec_last x y) = .ok (decLastRound a b)
  mc : ∀ (x : B) (a : Bytes 16), into_bytes x = .ok a → into_bytes (mc x) = .ok (mixCols a)
  imc : ∀ (x : B) (a : Bytes 16), into_bytes x = .ok a → into_bytes (imc x) = .ok (invMixCols a)
  /-- `pre_enc` and `pre_dec`, if there are any, add their key first; the key of the next round comes after. -/
  pre : ∀ p : Pre B, AesVec.pre = some p → ∀ x k k' : B,
    bitxor (p.pre_enc x k) k' = AesVec.enc (bitxor x k) k' ∧ bitxor (p.pre_dec x k) k' = AesVec.dec (bitxor x k) k'
  keygen_128 : ∀ key : Bytes 16, ∃ ks : Vector B 11, keygen_128 key = .ok ks ∧
    ∀ (r : Nat) (_ : r < 11), into_bytes ks[r] = .ok (roundKeyBytes (keyExpansion 4 key) r)
  keygen_192 : ∀ key : Bytes 24, ∃ ks : Vector B 13, keygen_192 key = .ok ks ∧
    ∀ (r : Nat) (_ : r < 13), into_bytes ks[r] = .ok (roundKeyBytes (keyExpansion 6 key) r)
  keygen_256 : ∀ key : Bytes 32, ∃ ks : Vector B 15, keygen_256 key = .ok ks ∧
    ∀ (r : Nat) (_ : r < 15), into_bytes ks[r] = .ok (roundKeyBytes (keyExpansion 8 key) r)

namespace Contract
variable {B : Type} [AesBlock B]

/-- The laws of the proofs imply the contract. -/
theorem of_lawful [LawfulVec B] [LawfulEnc B] [LawfulDec B] [LawfulPre B] [LawfulKeygen B] : Contract B := by
  have hb {x : B} {b : Bytes 16} (h : into_bytes x = .ok b) : view x = b := Except.ok.inj ((into_bytes_eq x).symm.trans h)
  constructor
  · exact fun b => ⟨ofB b, LawfulVec.new_eq b, LawfulVec.from_bytes_eq b, by rw [into_bytes_eq, LawfulVec.view_ofB]⟩
  · exact fun x => ⟨view x, into_bytes_eq x, by rw [LawfulVec.from_bytes_eq, LawfulVec.ofB_view]⟩
  · intro x b dst h
    by_cases hl : 16 ≤ dst.length
    · rw [if_pos hl, LawfulVec.store_to_ok _ _ hl, hb h]
    · rw [if_neg hl, LawfulVec.store_to_short _ _ (by omega)]
  · rw [into_bytes_eq, LawfulVec.view_zero]
  · intro x b h; rw [LawfulVec.is_zero_eq, hb h]
  · intro x y a b h h'; rw [LawfulVec.eq_eq, hb h, hb h']
  · intro x y a b h h'; rw [into_bytes_eq, LawfulVec.view_and, hb h, hb h']
  · intro x y a b h h'; rw [into_bytes_eq, LawfulVec.view_or, hb h, hb h']
  · intro x y a b h h'; rw [into_bytes_eq, LawfulVec.view_xor, hb h, hb h']
  · intro x a h; rw [into_bytes_eq, LawfulVec.view_not, hb h]
  · intro x y a b h h'; rw [into_bytes_eq, LawfulEnc.view_enc, hb h, hb h']
  · intro x y a b h h'; rw [into_bytes_eq, LawfulEnc.view_enc_last, hb h, hb h']
  · intro x y a b h h'; rw [into_bytes_eq, LawfulDec.view_dec, hb h, hb h']
  · intro x y a b h h'; rw [into_bytes_eq, LawfulDec.view_dec_last, hb h, hb h']
  · intro x a h; rw [into_bytes_eq, LawfulDec.view_mc, hb h]
  · intro x a h; rw [into_bytes_eq, LawfulDec.view_imc, hb h]
  · exact fun p hp x k k' => ⟨LawfulPre.pre_enc_eq p hp x k k', LawfulPre.pre_dec_eq p hp x k k'⟩
  · exact fun key => ⟨_, LawfulKeygen.keygen_128_eq key, fun r hr => by
      rw [into_bytes_eq, Vector.getElem_ofFn, LawfulVec.view_ofB]⟩
  · exact fun key => ⟨_, LawfulKeygen.keygen_192_eq key, fun r hr => by
      rw [into_bytes_eq, Vector.getElem_ofFn, LawfulVec.view_ofB]⟩
  · exact fun key => ⟨_, LawfulKeygen.keygen_256_eq key, fun r hr => by
      rw [into_bytes_eq, Vector.getElem_ofFn, LawfulVec.view_ofB]⟩

/-- The bytes of a value of a backend under contract. -/
def viewOf (x : B) : Bytes 16 := match into_bytes x with
  | .ok b => b
  | .error _ => zeroB 16
/-- The value with the given bytes. -/
def ofBytes (b : Bytes 16) : B := match (from_bytes b : M B) with
  | .ok x => x
  | .error _ => AesVec.zero

theorem into_viewOf (h : Contract B) (x : B) : into_bytes x = .ok (viewOf x) := by
  obtain ⟨b, hb, _⟩ := h.bytes x
  unfold viewOf; rw [hb]
theorem viewOf_eq {x : B} {b : Bytes 16} (hb : into_bytes x = .ok b) : viewOf x = b := by unfold viewOf; rw [hb]
theorem from_ofBytes (h : Contract B) (b : Bytes 16) : from_bytes b = .ok (ofBytes b : B) := by
  obtain ⟨x, _, hx, _⟩ := h.new b
  unfold ofBytes; rw [hx]

/-- The contract implies the laws of the proofs. -/
@[instance_reducible] def lawfulVec (h : Contract B) : LawfulVec B where
  view := viewOf
  ofB := ofBytes
  view_ofB b := by
    obtain ⟨x, _, hx, hb⟩ := h.new b
    have := h.from_ofBytes b
    rw [hx] at this
    rw [← Except.ok.inj this]; exact viewOf_eq hb
  ofB_view x := by
    obtain ⟨b, hb, hx⟩ := h.bytes x
    rw [viewOf_eq hb]
    have := h.from_ofBytes b
    rw [hx] at this
    exact (Except.ok.inj this).symm
  new_eq b := by
    obtain ⟨x, hn, hx, _⟩ := h.new b
    rw [hn, ← hx]; exact h.from_ofBytes b
  from_bytes_eq b := h.from_ofBytes b
  store_to_ok x dst hl := by rw [h.store_to x _ dst (h.into_viewOf x), if_pos hl]
  store_to_short x dst hl := by rw [h.store_to x _ dst (h.into_viewOf x), if_neg (by omega)]
  view_zero := viewOf_eq h.zero
  is_zero_eq x := h.is_zero x _ (h.into_viewOf x)
  eq_eq x y := h.eq x y _ _ (h.into_viewOf x) (h.into_viewOf y)
  view_and x y := viewOf_eq (h.and x y _ _ (h.into_viewOf x) (h.into_viewOf y))
  view_or x y := viewOf_eq (h.or x y _ _ (h.into_viewOf x) (h.into_viewOf y))
  view_xor x y := viewOf_eq (h.xor x y _ _ (h.into_viewOf x) (h.into_viewOf y))
  view_not x := viewOf_eq (h.not x _ (h.into_viewOf x))

end Contract

/-- C57: over any backend that meets the contract, no client can tell the crate from AES: single, double and fourfold blocks,
all key sizes, conversions between encrypters and decrypters, chains, formatting, panics. -/
theorem C57_any_backend (B : Type) [AesBlock B] (h : Contract B) (client : Client) (n : Nat) :
    observe (Over.crate B) client n = observe aes client n := by
  let _ := h.lawfulVec
  have hv : ∀ x : B, into_bytes x = .ok (view x) := h.into_viewOf
  have hof : ∀ {x : B} {b : Bytes 16}, into_bytes x = .ok b → x = ofB b := by
    intro x b hb
    rw [← Except.ok.inj ((hv x).symm.trans hb), LawfulVec.ofB_view]
  have : LawfulEnc B := ⟨fun a k => Contract.viewOf_eq (h.enc a k _ _ (hv a) (hv k)), fun a k => Contract.viewOf_eq (h.enc_last a k _ _ (hv a) (hv k))⟩
  have : LawfulDec B := ⟨fun a k => Contract.viewOf_eq (h.dec a k _ _ (hv a) (hv k)), fun a k => Contract.viewOf_eq (h.dec_last a k _ _ (hv a) (hv k)),
    fun a => Contract.viewOf_eq (h.mc a _ (hv a)), fun a => Contract.viewOf_eq (h.imc a _ (hv a))⟩
  have : LawfulPre B := ⟨fun p hp a k k' => (h.pre p hp a k k').1, fun p hp a k k' => (h.pre p hp a k k').2⟩
  have : LawfulKeygen B := by
    constructor
    · intro key
      obtain ⟨ks, hk, hr⟩ := h.keygen_128 key
      rw [hk]; refine congrArg Except.ok (Vector.ext fun i hi => ?_)
      rw [Vector.getElem_ofFn]; exact hof (hr i hi)
    · intro key
      obtain ⟨ks, hk, hr⟩ := h.keygen_192 key
      rw [hk]; refine congrArg Except.ok (Vector.ext fun i hi => ?_)
      rw [Vector.getElem_ofFn]; exact hof (hr i hi)
    · intro key
      obtain ⟨ks, hk, hr⟩ := h.keygen_256 key
      rw [hk]; refine congrArg Except.ok (Vector.ext fun i hi => ?_)
      rw [Vector.getElem_ofFn]; exact hof (hr i hi)
  exact Over.observe_aes B client n
