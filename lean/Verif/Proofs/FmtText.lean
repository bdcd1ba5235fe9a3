import Verif.Proofs.Fmt
import Verif.Proofs.Bytes
import Verif.Spec.Sink
/-! The texts. -/
namespace Aes.Fmt
open Rust TextSpec AesSpec

/-! ### Positional notation -/

theorem positional_append (up : Bool) (b m n v u : Nat) (hb : 0 < b) (hu : u < b ^ n) :
    positional up b (m + n) (v * b ^ n + u) = positional up b m v ++ positional up b n u := by
  apply List.ext_getElem
  · simp [positional]
  · intro i h1 h2
    have hi : i < m + n := by simpa [positional] using h1
    by_cases h : i < m
    · rw [List.getElem_append_left (by simpa [positional] using h)]
      simp only [positional, List.getElem_map, List.getElem_range]
      have e : b ^ (m + n - 1 - i) = b ^ n * b ^ (m - 1 - i) := by rw [← Nat.pow_add]; congr 1; omega
      rw [e, ← Nat.div_div_eq_div_mul, Nat.mul_comm v, Nat.mul_add_div (Nat.pow_pos hb), Nat.div_eq_of_lt hu, Nat.add_zero]
    · rw [List.getElem_append_right (by simpa [positional] using h)]
      simp only [positional, List.getElem_map, List.getElem_range, List.length_map, List.length_range]
      have hj : i - m < n := by omega
      generalize hjj : i - m = j at hj
      have e : m + n - 1 - i = n - 1 - j := by omega
      rw [e]
      have e2 : v * b ^ n + u = b ^ (n - 1 - j) * (b * (v * b ^ j)) + u := by
        have : b ^ n = b ^ (n - 1 - j) * (b * b ^ j) := by
          rw [← Nat.pow_succ', ← Nat.pow_add]; congr 1; omega
        rw [this]; congr 1; ac_rfl
      rw [e2, Nat.mul_add_div (Nat.pow_pos hb), Nat.add_comm, Nat.add_mul_mod_self_left]

/-- Big-endian value of bytes. -/
def beVal (l : List U8) : Nat := l.foldl (fun acc x => 256 * acc + x.toNat) 0
theorem foldl_beVal (l : List U8) (a : Nat) :
    l.foldl (fun acc (x : U8) => 256 * acc + x.toNat) a = a * 256 ^ l.length + beVal l := by
  induction l generalizing a with
  | nil => simp [beVal]
  | cons x l ih =>
    rw [beVal, List.foldl_cons, List.foldl_cons, ih, ih (256 * 0 + x.toNat), List.length_cons, Nat.pow_succ']
    rw [Nat.add_mul, Nat.mul_zero, Nat.zero_add, Nat.add_assoc]
    congr 1
    ac_rfl
theorem beVal_cons (x : U8) (l : List U8) : beVal (x :: l) = x.toNat * 256 ^ l.length + beVal l := by
  rw [beVal, List.foldl_cons, foldl_beVal]; simp
theorem beVal_lt (l : List U8) : beVal l < 256 ^ l.length := by
  induction l with
  | nil => simp [beVal]
  | cons x l ih =>
    rw [beVal_cons, List.length_cons, Nat.pow_succ']
    have := x.isLt
    calc _ < x.toNat * 256 ^ l.length + 256 ^ l.length := by omega
      _ = (x.toNat + 1) * 256 ^ l.length := by rw [Nat.add_mul, Nat.one_mul]
      _ ≤ _ := Nat.mul_le_mul_right _ (by omega)

theorem bytes_positional (up : Bool) (b k : Nat) (hb : 0 < b) (h : b ^ k = 256) (l : List U8) :
    l.flatMap (fun x => positional up b k x.toNat) = positional up b (k * l.length) (beVal l) := by
  induction l with
  | nil => simp [positional]
  | cons x l ih =>
    rw [List.flatMap_cons, ih, beVal_cons, List.length_cons, Nat.mul_add, Nat.mul_one, Nat.add_comm]
    have e : 256 ^ l.length = b ^ (k * l.length) := by rw [Nat.pow_mul, h]
    rw [e, positional_append _ _ _ _ _ _ hb (e ▸ beVal_lt l)]

theorem toList_toBe_succ (n : Nat) {w : Nat} (x : BitVec w) :
    (toBe (n + 1) x).toList = x.extractLsb' (8 * n) 8 :: (toBe n x).toList := by
  unfold toBe
  rw [Vector.toList_reverse, Vector.toList_reverse]
  apply List.ext_getElem
  · simp
  · intro i h1 h2
    cases i with
    | zero => simp [toLe]
    | succ i =>
      have hi : i < n := by simpa using h1
      simp only [List.getElem_cons_succ, List.getElem_reverse, Vector.getElem_toList, toLe, Vector.getElem_ofFn, Vector.length_toList]
      congr 2; omega
theorem beVal_toBe (n : Nat) {w : Nat} (x : BitVec w) : beVal (toBe n x).toList = x.toNat % 256 ^ n := by
  induction n with
  | zero =>
    have : (toBe 0 x).toList = [] := by rw [← List.length_eq_zero_iff]; simp
    rw [this, Nat.pow_zero, Nat.mod_one]; rfl
  | succ n ih =>
    rw [toList_toBe_succ, beVal_cons, ih, Vector.length_toList, Nat.mod_pow_succ, Nat.add_comm, Nat.mul_comm]
    congr 2
    rw [BitVec.extractLsb'_toNat, Nat.shiftRight_eq_div_pow, Nat.pow_mul]
theorem hexBytes_u128 (up : Bool) (v : U128) : hexBytes up (toBe 16 v).toList = positional up 16 32 v.toNat := by
  rw [hexBytes, bytes_positional _ _ _ (by omega) (by rfl), beVal_toBe, Nat.mod_eq_of_lt (by have := v.isLt; omega),
    Vector.length_toList]
theorem binBytes_u128 (v : U128) : binBytes (toBe 16 v).toList = positional false 2 128 v.toNat := by
  rw [binBytes, bytes_positional _ _ _ (by omega) (by rfl), beVal_toBe, Nat.mod_eq_of_lt (by have := v.isLt; omega),
    Vector.length_toList]

theorem digitVal_digit (up : Bool) : ∀ d, d < 16 → digitVal (digit up d) = d := by
  cases up <;> decide
theorem readNum_positional (up : Bool) (b n v : Nat) (hb : 0 < b) (h16 : b ≤ 16) : readNum b (positional up b n v) = v % b ^ n := by
  induction n generalizing v with
  | zero => simp [positional, readNum, Nat.mod_one]
  | succ n ih =>
    have e : positional up b (n + 1) v = positional up b n (v / b) ++ [digit up (v % b)] := by
      rw [show v = (v / b) * b ^ 1 + v % b by rw [Nat.pow_one, Nat.mul_comm]; exact (Nat.div_add_mod _ _).symm]
      rw [positional_append _ _ _ _ _ _ hb (by rw [Nat.pow_one]; exact Nat.mod_lt _ hb)]
      have h1 : (v / b * b ^ 1 + v % b) = v := by rw [Nat.pow_one, Nat.mul_comm]; exact Nat.div_add_mod _ _
      rw [h1]
      simp [positional]
    rw [e, readNum, List.foldl_append, ← readNum, ih]
    simp only [List.foldl_cons, List.foldl_nil]
    rw [digitVal_digit _ _ (Nat.lt_of_lt_of_le (Nat.mod_lt _ hb) h16)]
    rw [Nat.pow_succ', Nat.mod_mul, Nat.add_comm]
theorem length_positional (up : Bool) (b n v : Nat) : (positional up b n v).length = n := by simp [positional]
theorem positional_inj (up : Bool) (b n v u : Nat) (hb : 0 < b) (h16 : b ≤ 16) (hv : v < b ^ n) (hu : u < b ^ n)
    (h : positional up b n v = positional up b n u) : v = u := by
  have := congrArg (readNum b) h
  rwa [readNum_positional _ _ _ _ hb h16, readNum_positional _ _ _ _ hb h16, Nat.mod_eq_of_lt hv, Nat.mod_eq_of_lt hu] at this

/-! ### One byte -/

theorem emits_zeroPad (k : Nat) (pfx d : List Char) :
    Emits (padIntegral { align := some .right, zeroPad := true, width := some k } pfx d) (List.replicate (k - d.length) '0' ++ d) := by
  unfold padIntegral
  simp only [Bool.false_eq_true, if_false, Nat.zero_add]
  split
  · refine emits_cast (emits_andThen (emits_andThen emits_done emits_done) (emits_write d)) ?_
    rw [show k - d.length = 0 by omega]; rfl
  · simp only [if_true]
    refine emits_cast (emits_andThen (emits_andThen emits_done emits_done) (emits_andThen (emits_writeN '0' (k - d.length)) (emits_write d))) rfl

theorem byte_hex (up : Bool) : ∀ n, n < 256 →
    List.replicate (2 - (digitsOf 16 up 8 n).length) '0' ++ digitsOf 16 up 8 n = positional up 16 2 n := by
  cases up <;> decide +kernel
theorem byte_bin : ∀ n, n < 256 →
    List.replicate (8 - (digitsOf 2 false 8 n).length) '0' ++ digitsOf 2 false 8 n = positional false 2 8 n := by
  decide +kernel

theorem emits_u8LowerHex (x : U8) : Emits (u8LowerHex spec02x x) (positional false 16 2 x.toNat) :=
  emits_cast (emits_zeroPad 2 _ _) (byte_hex false _ x.isLt)
theorem emits_u8UpperHex (x : U8) : Emits (u8UpperHex spec02x x) (positional true 16 2 x.toNat) :=
  emits_cast (emits_zeroPad 2 _ _) (byte_hex true _ x.isLt)
theorem emits_u8Binary (x : U8) : Emits (u8Binary spec08b x) (positional false 2 8 x.toNat) :=
  emits_cast (emits_zeroPad 8 _ _) (byte_bin _ x.isLt)

/-! ### Blocks -/
section
variable {B : Type} [AesBlock B]

theorem emits_lowerHex {x : B} {b : Bytes 16} (h : into_bytes x = .ok b) (o : Opts) :
    Emits (lowerHex x o) ((if o.alternate then ['0', 'x'] else []) ++ hexBytes false b.toList) :=
  emits_andThen (emits_ite (fun _ => emits_write _) fun _ => emits_done)
    (emits_withM h (emits_forEach _ _ _ fun x _ => emits_u8LowerHex x))
theorem emits_upperHex {x : B} {b : Bytes 16} (h : into_bytes x = .ok b) (o : Opts) :
    Emits (upperHex x o) ((if o.alternate then ['0', 'X'] else []) ++ hexBytes true b.toList) :=
  emits_andThen (emits_ite (fun _ => emits_write _) fun _ => emits_done)
    (emits_withM h (emits_forEach _ _ _ fun x _ => emits_u8UpperHex x))
theorem emits_binary {x : B} {b : Bytes 16} (h : into_bytes x = .ok b) (o : Opts) :
    Emits (binary x o) ((if o.alternate then ['0', 'b'] else []) ++ binBytes b.toList) :=
  emits_andThen (emits_ite (fun _ => emits_write _) fun _ => emits_done)
    (emits_withM h (emits_forEach _ _ _ fun x _ => emits_u8Binary x))
theorem emits_debug {x : B} {b : Bytes 16} (h : into_bytes x = .ok b) (o : Opts) :
    Emits (debug x o) (hexBytes o.alternate b.toList) := by
  unfold debug display
  cases ho : o.alternate with
  | true => exact emits_cast (emits_upperHex h {}) rfl
  | false => exact emits_cast (emits_lowerHex h {}) rfl
end

/-! ### Builders -/

/-- No newline in the text. -/
def OneLine (t : List Char) : Prop := ∀ c ∈ t, c ≠ '\n'
theorem oneLine_positional (up : Bool) (b n v : Nat) (h16 : b ≤ 16) (hb : 0 < b) : OneLine (positional up b n v) := by
  intro c hc
  simp only [positional, List.mem_map] at hc
  obtain ⟨i, _, rfl⟩ := hc
  have : ∀ up d, d < 16 → digit up d ≠ '\n' := by decide
  exact this _ _ (Nat.lt_of_lt_of_le (Nat.mod_lt _ hb) h16)
theorem oneLine_hexBytes (up : Bool) (l : List U8) : OneLine (hexBytes up l) := by
  intro c hc
  simp only [hexBytes, List.mem_flatMap] at hc
  obtain ⟨x, _, hx⟩ := hc
  exact oneLine_positional _ _ _ _ (by omega) (by omega) c hx

theorem indent_oneLine (t : List Char) (h : OneLine t) (s : List Char) (hs : IsLine s) :
    indent true (t ++ s) = [' ', ' ', ' ', ' '] ++ (t ++ s) ∧ nlAfter true (t ++ s) = decide (s.getLast? = some '\n') := by
  have hl : IsLine (t ++ s) := by
    refine ⟨by simp [hs.1], fun c hc => ?_⟩
    rw [List.dropLast_append_of_ne_nil hs.1] at hc
    rcases List.mem_append.mp hc with h' | h'
    · exact h c h'
    · exact hs.2 c h'
  obtain ⟨h1, h2⟩ := indent_line true _ hl
  refine ⟨h1, ?_⟩
  rw [h2, List.getLast?_append]
  cases hh : s.getLast? with
  | none => exact absurd (List.getLast?_eq_none_iff.mp hh) hs.1
  | some c => rfl
theorem isLine_comma : IsLine [',', '\n'] := ⟨by simp, by simp⟩

theorem commaSep_cons (a : List Char) (l : List (List Char)) : commaSep (a :: l) = a ++ l.flatMap fun t => [',', ' '] ++ t := by
  induction l generalizing a with
  | nil => simp [commaSep]
  | cons b l ih => rw [commaSep, ih, List.flatMap_cons, List.append_assoc, List.append_assoc]

section
variable {α : Type} (l : List α) (v : α → Opts → Action) (txt : α → List Char) (o : Opts)

theorem emits_entries (k : Nat) (hk : 0 < k) (hv : ∀ x ∈ l, Emits (v x o) (txt x)) (h1 : ∀ x ∈ l, OneLine (txt x)) :
    Emits (forEach ((l.map v).zipIdx k) fun p => listEntry o p.2 p.1)
      (if o.alternate then lines 4 (l.map txt) else (l.map txt).flatMap fun t => [',', ' '] ++ t) := by
  induction l generalizing k with
  | nil => cases o.alternate <;> exact emits_done
  | cons x l ih =>
    rw [List.map_cons, List.zipIdx_cons]
    have hx := hv x (by simp)
    have ih := ih (k + 1) (by omega) (fun y hy => hv y (by simp [hy])) (fun y hy => h1 y (by simp [hy]))
    refine emits_cast (emits_andThen (t := if o.alternate then List.replicate 4 ' ' ++ txt x ++ [',', '\n'] else [',', ' '] ++ txt x) ?_ ih) ?_
    · unfold listEntry
      refine emits_ite (fun _ => ?_) fun _ => ?_
      · rw [if_neg (by omega)]
        refine emits_cast (emits_andThen emits_done (emits_padded (emits_andThen hx (emits_write _)))) ?_
        rw [(indent_oneLine _ (h1 x (by simp)) _ isLine_comma).1]
        simp
      · rw [if_neg (by omega)]
        exact emits_andThen (emits_write _) hx
    · cases o.alternate <;> simp [lines]

theorem emits_debugList (hl : l ≠ []) (hv : ∀ x ∈ l, Emits (v x o) (txt x)) (h1 : ∀ x ∈ l, OneLine (txt x)) :
    Emits (debugList o (l.map v))
      (if o.alternate then ['[', '\n'] ++ lines 4 (l.map txt) ++ [']'] else ['['] ++ commaSep (l.map txt) ++ [']']) := by
  cases l with
  | nil => exact absurd rfl hl
  | cons x l =>
    have hx := hv x (by simp)
    have ih := emits_entries l v txt o 1 (by omega) (fun y hy => hv y (by simp [hy])) (fun y hy => h1 y (by simp [hy]))
    unfold debugList
    rw [List.map_cons, List.zipIdx_cons]
    refine emits_cast (emits_andThen (emits_write _) (emits_andThen (emits_andThen
      (t := if o.alternate then ['\n'] ++ (List.replicate 4 ' ' ++ txt x ++ [',', '\n']) else txt x) ?_ ih) (emits_write _))) ?_
    · unfold listEntry
      refine emits_ite (fun _ => ?_) fun _ => ?_
      · rw [if_pos rfl]
        refine emits_cast (emits_andThen (emits_write _) (emits_padded (emits_andThen hx (emits_write _)))) ?_
        rw [(indent_oneLine _ (h1 x (by simp)) _ isLine_comma).1]
        simp
      · rw [if_pos rfl]
        exact emits_andThen emits_done hx
    · cases o.alternate with
      | true => simp [lines]
      | false => simp [commaSep_cons]

theorem emits_fields (k : Nat) (hk : 0 < k) (hv : ∀ x ∈ l, Emits (v x o) (txt x)) (h1 : ∀ x ∈ l, OneLine (txt x)) :
    Emits (forEach ((l.map v).zipIdx k) fun p => tupleField o p.2 p.1)
      (if o.alternate then lines 4 (l.map txt) else (l.map txt).flatMap fun t => [',', ' '] ++ t) := by
  induction l generalizing k with
  | nil => cases o.alternate <;> exact emits_done
  | cons x l ih =>
    rw [List.map_cons, List.zipIdx_cons]
    have hx := hv x (by simp)
    have ih := ih (k + 1) (by omega) (fun y hy => hv y (by simp [hy])) (fun y hy => h1 y (by simp [hy]))
    refine emits_cast (emits_andThen (t := if o.alternate then List.replicate 4 ' ' ++ txt x ++ [',', '\n'] else [',', ' '] ++ txt x) ?_ ih) ?_
    · unfold tupleField
      refine emits_ite (fun _ => ?_) fun _ => ?_
      · rw [if_neg (by omega)]
        refine emits_cast (emits_andThen emits_done (emits_padded (emits_andThen hx (emits_write _)))) ?_
        rw [(indent_oneLine _ (h1 x (by simp)) _ isLine_comma).1]
        simp
      · rw [if_neg (by omega)]
        exact emits_andThen (emits_write _) hx
    · cases o.alternate <;> simp [lines]

theorem emits_debugTuple (hl : l ≠ []) (hv : ∀ x ∈ l, Emits (v x o) (txt x)) (h1 : ∀ x ∈ l, OneLine (txt x)) :
    Emits (debugTuple o (l.map v))
      (if o.alternate then ['(', '\n'] ++ lines 4 (l.map txt) ++ [')'] else ['('] ++ commaSep (l.map txt) ++ [')']) := by
  cases l with
  | nil => exact absurd rfl hl
  | cons x l =>
    have hx := hv x (by simp)
    have ih := emits_fields l v txt o 1 (by omega) (fun y hy => hv y (by simp [hy])) (fun y hy => h1 y (by simp [hy]))
    unfold debugTuple
    rw [List.map_cons, List.zipIdx_cons]
    refine emits_cast (emits_andThen (emits_write _) (emits_andThen (emits_andThen
      (t := if o.alternate then ['(', '\n'] ++ (List.replicate 4 ' ' ++ txt x ++ [',', '\n']) else ['('] ++ txt x) ?_ ih) (emits_write _))) ?_
    · unfold tupleField
      refine emits_ite (fun _ => ?_) fun _ => ?_
      · rw [if_pos rfl]
        refine emits_cast (emits_andThen (emits_write _) (emits_padded (emits_andThen hx (emits_write _)))) ?_
        rw [(indent_oneLine _ (h1 x (by simp)) _ isLine_comma).1]
        simp
      · rw [if_pos rfl]
        exact emits_andThen (emits_write _) hx
    · cases o.alternate with
      | true => simp [lines]
      | false => simp [commaSep_cons]

theorem indent_lines (k : Nat) (ts : List (List Char)) (h : ∀ t ∈ ts, OneLine t) :
    indent true (lines k ts) = lines (k + 4) ts ∧ nlAfter true (lines k ts) = true := by
  induction ts with
  | nil => exact ⟨rfl, rfl⟩
  | cons t ts ih =>
    obtain ⟨i1, i2⟩ := ih fun u hu => h u (by simp [hu])
    have hone : OneLine (List.replicate k ' ' ++ t) := by
      intro c hc
      rcases List.mem_append.mp hc with h' | h'
      · rw [List.eq_of_mem_replicate h']; decide
      · exact h t (by simp) c h'
    obtain ⟨j1, j2⟩ := indent_oneLine _ hone _ isLine_comma
    have e : ∀ k, lines k (t :: ts) = (List.replicate k ' ' ++ t ++ [',', '\n']) ++ lines k ts := fun k => by simp [lines]
    rw [e, indent_append _ (List.replicate k _ ++ t ++ _), nlAfter_append _ (List.replicate k _ ++ t ++ _), j1, j2]
    refine ⟨?_, i2⟩
    rw [show decide ([',', '\n'].getLast? = some '\n') = true from rfl, i1, e, Nat.add_comm k 4]
    simp [← List.replicate_append_replicate, List.append_assoc]

/-- The derived `Debug` of a struct whose one field is an array. -/
theorem emits_debugStruct (name field : List Char) (hf : OneLine field) (hl : l ≠ []) (hv : ∀ x ∈ l, Emits (v x o) (txt x)) (h1 : ∀ x ∈ l, OneLine (txt x)) :
    Emits (debugStruct1 o name field fun o => debugList o (l.map v))
      (if o.alternate then
        name ++ [' ', '{', '\n'] ++ List.replicate 4 ' ' ++ field ++ [':', ' ', '[', '\n'] ++ lines 8 (l.map txt) ++
          List.replicate 4 ' ' ++ [']', ',', '\n', '}']
      else name ++ [' ', '{', ' '] ++ field ++ [':', ' ', '['] ++ commaSep (l.map txt) ++ [']', ' ', '}']) := by
  have hL := emits_debugList l v txt o hl hv h1
  unfold debugStruct1
  cases ho : o.alternate with
  | true =>
    rw [ho] at hL
    simp only [if_true] at hL ⊢
    refine emits_cast (emits_andThen (emits_write _) (emits_andThen (emits_write _) (emits_andThen
      (emits_padded (emits_andThen (emits_write _) (emits_andThen (emits_write _) (emits_andThen hL (emits_write _))))) (emits_write _)))) ?_
    have e : field ++ ([':', ' '] ++ (['[', '\n'] ++ lines 4 (l.map txt) ++ [']'] ++ [',', '\n'])) =
        (field ++ [':', ' ', '[', '\n']) ++ (lines 4 (l.map txt) ++ [']', ',', '\n']) := by simp
    have hl1 : IsLine [':', ' ', '[', '\n'] := ⟨by simp, by simp⟩
    have hl2 : IsLine [']', ',', '\n'] := ⟨by simp, by simp⟩
    obtain ⟨j1, j2⟩ := indent_oneLine field hf _ hl1
    obtain ⟨k1, k2⟩ := indent_lines 4 (l.map txt) (fun t ht => by
      obtain ⟨x, hx, rfl⟩ := List.mem_map.mp ht; exact h1 x hx)
    obtain ⟨m1, m2⟩ := indent_line true _ hl2
    rw [e, indent_append, j1, j2, show decide ([':', ' ', '[', '\n'].getLast? = some '\n') = true from rfl, indent_append, k1, k2, m1]
    simp
  | false =>
    rw [ho] at hL
    simp only [Bool.false_eq_true, if_false] at hL ⊢
    refine emits_cast (emits_andThen (emits_write _) (emits_andThen (emits_write _) (emits_andThen
      (emits_andThen (emits_write _) (emits_andThen (emits_write _) hL)) (emits_write _)))) ?_
    simp
end

/-! ### Writers -/

/-- As a transformer: none. -/
def baseSem {σ : Type} (w : Writer σ) (out : σ → List Char) (h : Appends w out) : Sem w Unit where
  out := out
  st _ := ()
  tr _ c := c
  nx _ _ := ()
  tr_nil _ := rfl
  nx_nil _ := rfl
  tr_append _ _ _ := rfl
  nx_append _ _ _ := rfl
  law c s := by
    obtain ⟨c', h1, h2, h3⟩ := h c s
    exact ⟨c', h1, h2, fun h => ⟨h3 h, rfl⟩⟩

theorem emits_sink {a : Action} {t : List Char} (ha : Emits a t) {σ : Type} (w : Writer σ) (out : σ → List Char)
    (h : Appends w out) (s : σ) : ∃ ok s', a.run w s = .ok (ok, s') ∧
      ∃ c', c' <+: t ∧ out s' = out s ++ c' ∧ (ok = true → c' = t) := by
  obtain ⟨ok, s', h1, ⟨c', h2, h3, h4⟩, _⟩ := ha w (baseSem w out h) s
  exact ⟨ok, s', h1, c', h2, h3, fun h => (h4 h).1⟩
theorem emits_format {a : Action} {t : List Char} (ha : Emits a t) : format a = .ok t := by
  obtain ⟨ok, s', h1, ⟨c', h2, h3, h4⟩, h5⟩ := ha stringWriter
    (baseSem stringWriter id fun c s => ⟨c, List.prefix_rfl, rfl, fun _ => rfl⟩) []
  have hok := h5 fun c s => rfl
  subst hok
  unfold format
  rw [h1]
  have h3' : s' = [] ++ c' := h3
  simp only [h3', (h4 rfl).1]
  rfl

end Aes.Fmt
