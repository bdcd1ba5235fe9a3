import Verif.Proofs.CostClient
import Verif.Properties.SourceLeak
/-
C64: how much work the calls do (src/lib.rs:371,382,399,410: "the most optimized way" to apply several rounds; README.md:8-25: which
hardware is used). Work is counted on the translated source (C61) and compared with the price list of `Verif/Spec/Cost.lean`.
-/
namespace Aes
open Rust AesSpec Target Client

/-- The work that the first `n` calls of a client do, when it is linked against the source text compiled for target `t`. -/
def workDone (pf : Profile) (e : Endian) (t : Target) (client : Client) (n : Nat) : Nat := totalWork (RustSrc.Leak.leakage pf e t client n)

/-- C64: the price list is exact. Whatever a client has done before, a call that is on the list and returns does exactly the listed
amount of work: the amount depends on the function, the width, the key size and the number of keys, and never on the data, on
any implementation. -/
theorem C64_price (pf : Profile) (e : Endian) (t : Target) (client : Client) (n k : Nat) (c : Call)
    (hc : client (observe (RustSrc.crate pf e t) client n) = some c)
    (hr : observe (RustSrc.crate pf e t) client (n + 1) = observe (RustSrc.crate pf e t) client n ++ [.done])
    (hk : price t c = some k) : workDone pf e t client (n + 1) = workDone pf e t client n + k := by
  rw [C60_source_is_model] at hc hr
  unfold workDone
  rw [C61_leakage, C61_leakage, leakage_succ hc, Leak.totalWork_append]
  refine congrArg _ (Leak.step_costs t _ c k hk (Client.step (crate t) (Client.run (crate t) client n).2 c).2 ?_)
  rw [Leak.out_step]
  refine congrArg Except.ok (Prod.ext ?_ rfl)
  have hc' : client (Client.run (crate t) client n).1 = some c := hc
  have hr' : (Client.run (crate t) client (n + 1)).1 = (Client.run (crate t) client n).1 ++ [.done] := hr
  simp only [Client.run, hc'] at hr'
  exact List.head_eq_of_cons_eq (List.append_cancel_left hr')
theorem observe_script (I : Impl) (l : List Call) : ∀ n, n ≤ l.length → (observe I (script l) n).length = n
  | 0, _ => rfl
  | n + 1, h => by
    have ih := observe_script I l n (Nat.le_of_succ_le h)
    have hc : script l (run I (script l) n).1 = some l[n] := by
      show l[(observe I (script l) n).length]? = _
      rw [ih]; exact List.getElem?_eq_getElem h
    unfold observe at ih ⊢
    simp only [run, hc, List.length_append, ih, List.length_singleton]
theorem observe_take (I : Impl) (l : List Call) (n : Nat) (h : n + 1 ≤ l.length) :
    script l (observe I (script l) n) = some l[n] ∧ ∃ o, observe I (script l) (n + 1) = observe I (script l) n ++ [o] := by
  have hc : script l (run I (script l) n).1 = some l[n] := by
    show l[(observe I (script l) n).length]? = _
    rw [observe_script I l n (Nat.le_of_succ_le h)]; exact List.getElem?_eq_getElem h
  refine ⟨hc, ?_⟩
  unfold observe
  simp only [run, hc]
  exact ⟨_, rfl⟩

/-- C64: the bill of a program. A list of calls that are on the price list, and that all return, does the sum of their prices. -/
theorem C64_program (pf : Profile) (e : Endian) (t : Target) (l : List Call) (prices : List Nat) (hp : l.map (price t) = prices.map some)
    (hr : observe (RustSrc.crate pf e t) (script l) l.length = List.replicate l.length .done) :
    workDone pf e t (script l) l.length = prices.sum := by
  have hl : prices.length = l.length := by simpa using (congrArg List.length hp).symm
  have obs : ∀ n, n ≤ l.length → observe (RustSrc.crate pf e t) (script l) n = List.replicate n .done := by
    intro n hn
    induction hd : l.length - n generalizing n with
    | zero => rw [show n = l.length by omega]; exact hr
    | succ d ih =>
      have h1 := ih (n + 1) (by omega) (by omega)
      obtain ⟨_, o, ho⟩ := observe_take (RustSrc.crate pf e t) l n (by omega)
      rw [ho, List.replicate_succ'] at h1
      exact (List.append_inj' h1 rfl).1
  have main : ∀ n, n ≤ l.length → workDone pf e t (script l) n = (prices.take n).sum := by
    intro n
    induction n with
    | zero =>
      intro _
      unfold workDone
      rw [C61_leakage]
      rfl
    | succ n ih =>
      intro hn
      have hn' : n < prices.length := by omega
      have hk : price t l[n] = some prices[n] := by
        have := congrArg (·[n]?) hp
        simpa [List.getElem?_eq_getElem hn, List.getElem?_eq_getElem hn'] using this
      rw [C64_price pf e t (script l) n prices[n] l[n] (observe_take _ l n hn).1 (by rw [obs _ hn, obs _ (Nat.le_of_succ_le hn), List.replicate_succ']) hk,
        ih (Nat.le_of_succ_le hn), List.take_succ_eq_append_getElem hn', List.sum_append]
      simp
  rw [main _ (Nat.le_refl _), ← hl, List.take_length]

/-- What `chain_enc` and `chain_dec` replace: an addition of the first key, and one call of `enc` (`dec`) for every further key. -/
def separateCalls (t : Target) (w : Width) (op : BinOp) (n : Nat) : Option Nat := do
  let add ← price t (.bin w .xor 0 0)
  let round ← price t (.bin w op 0 0)
  some (add + (n - 1) * round)
/-- C64: a chain is never dearer than the calls it replaces (C08 says that it computes the same), on any implementation and for any
number of keys; the difference is exactly one addition per inner round where the hardware's round starts with the addition (ARM and
32-bit RISC-V), and nothing elsewhere. -/
theorem C64_chain (t : Target) (w : Width) (i : Nat) (keys : List Nat) :
    ∃ e d e' d', price t (.chain_enc w i keys) = some e ∧ price t (.chain_dec w i keys) = some d ∧
      separateCalls t w .enc keys.length = some e' ∧ separateCalls t w .dec keys.length = some d' ∧
      e + (keys.length - 1) * savedPerRound t w = e' ∧ d + (keys.length - 1) * savedPerRound t w = d' ∧
      ((e < e' ∧ d < d') ↔ 2 ≤ keys.length ∧ ((∃ b, t = .arm b) ∨ t = .riscv32)) := by
  have hs : ∀ op, op = .enc ∨ op = .dec → savedPerRound t w ≤ binPrice t w op := by
    intro op h
    unfold savedPerRound binPrice
    split
    · exact Nat.mul_le_mul_left _ (by rcases h with rfl | rfl <;> simp [blockPrice])
    · exact Nat.mul_le_mul_left _ (by rcases h with rfl | rfl <;> decide)
    · exact Nat.zero_le _
  have key : ∀ op, op = .enc ∨ op = .dec → chainPrice t w op keys.length + (keys.length - 1) * savedPerRound t w =
      binPrice t w .xor + (keys.length - 1) * binPrice t w op := by
    intro op h
    unfold chainPrice
    rw [Nat.add_assoc, ← Nat.mul_add, Nat.sub_add_cancel (hs op h)]
  refine ⟨_, _, _, _, rfl, rfl, rfl, rfl, key .enc (.inl rfl), key .dec (.inr rfl), ?_⟩
  have h1 := key .enc (.inl rfl)
  have h2 := key .dec (.inr rfl)
  have hp : (0 < savedPerRound t w ↔ ((∃ b, t = .arm b) ∨ t = .riscv32)) := by
    cases t <;> cases w <;> simp [savedPerRound, binPrice, passes, blockPrice]
  rw [← hp]
  constructor
  · rintro ⟨h, _⟩
    have : 0 < (keys.length - 1) * savedPerRound t w := by omega
    exact ⟨by have := Nat.pos_of_mul_pos_right this; omega, Nat.pos_of_mul_pos_left this⟩
  · rintro ⟨h, h'⟩
    have : 0 < (keys.length - 1) * savedPerRound t w := Nat.mul_pos (by omega) h'
    exact ⟨by omega, by omega⟩

/-- The number of blocks. -/
def blockCount : Width → Nat
  | .x1 => 1
  | .x2 => 2
  | .x4 => 4
/-- C64: the wide types. An operation on two or four blocks costs as much as `passes` operations on one block: never more than on the
blocks one by one; with VAES two blocks cost as much as one, and with VAES and AVX-512 four blocks cost as much as one. -/
theorem C64_wide (t : Target) (w : Width) :
    (∀ op i j, price t (.bin w op i j) = (price t (.bin .x1 op i j)).map (passes t w * ·)) ∧
    (∀ i, price t (.not w i) = (price t (.not .x1 i)).map (passes t w * ·)) ∧
    (∀ i keys, price t (.chain_enc w i keys) = (price t (.chain_enc .x1 i keys)).map (passes t w * ·)) ∧
    (∀ i keys, price t (.chain_dec w i keys) = (price t (.chain_dec .x1 i keys)).map (passes t w * ·)) ∧
    (∀ k x i, price t (.encrypt k w x i) = (price t (.encrypt k .x1 x i)).map (passes t w * ·)) ∧
    (∀ k x i, price t (.decrypt k w x i) = (price t (.decrypt k .x1 x i)).map (passes t w * ·)) ∧
    1 ≤ passes t w ∧ passes t w ≤ blockCount w ∧
    (passes t w < blockCount w ↔ (t = .x86Vaes ∨ t = .x86Vaes512) ∧ w ≠ .x1) ∧
    passes .x86Vaes .x2 = 1 ∧ passes .x86Vaes .x4 = 2 ∧ passes .x86Vaes512 .x2 = 1 ∧ passes .x86Vaes512 .x4 = 1 := by
  have hb : ∀ op, binPrice t w op = passes t w * binPrice t .x1 op := fun op => by
    show _ = _ * (1 * _)
    rw [Nat.one_mul]; rfl
  have hs : savedPerRound t w = passes t w * savedPerRound t .x1 := by
    unfold savedPerRound
    split
    · exact hb _
    · exact hb _
    · rfl
  have hc : ∀ op n, chainPrice t w op n = passes t w * chainPrice t .x1 op n := fun op n => by
    unfold chainPrice
    rw [hb, hb op, hs, ← Nat.mul_sub, Nat.mul_add, Nat.mul_left_comm]
  refine ⟨fun op _ _ => congrArg some (hb op), fun _ => congrArg some (hb _), fun _ _ => congrArg some (hc _ _), fun _ _ => congrArg some (hc _ _), fun k _ _ => congrArg some ?_, fun k _ _ => congrArg some ?_, ?_, ?_, ?_,
    rfl, rfl, rfl, rfl⟩
  · rw [hc, hb .encLast]; exact (Nat.mul_add ..).symm
  · rw [hc, hb .decLast]; exact (Nat.mul_add ..).symm
  · cases t <;> cases w <;> simp [passes, blockCount]
  · cases t <;> cases w <;> simp [passes, blockCount]
  · cases t <;> cases w <;> simp [passes, blockCount]

theorem encrypt_program_returns (t : Target) (k : KeySize) (w : Width) (key : Vector U8 k.bytes) (b : Vector U8 w.size) :
    observe (Client.spec t) (script (encryptProgram k w key b)) 3 = [.done, .done, .done] := by
  cases t with
  | bitslice e => cases e <;> cases k <;> cases w <;> rfl
  | _ => cases k <;> cases w <;> rfl
theorem decrypt_program_returns (t : Target) (k : KeySize) (w : Width) (key : Vector U8 k.bytes) (b : Vector U8 w.size) :
    observe (Client.spec t) (script (decryptProgram k w key b)) 3 = [.done, .done, .done] := by
  cases t with
  | bitslice e => cases e <;> cases k <;> cases w <;> rfl
  | _ => cases k <;> cases w <;> rfl

/-- C64: a whole program. Setting up a key and encrypting (decrypting) a value does the same amount of work for every key and every
value, on every implementation: also on the table-based one, whose look-ups show the key (C61). -/
theorem C64_encrypt_program (pf : Profile) (e : Endian) (t : Target) (k : KeySize) (w : Width) (key : Vector U8 k.bytes) (b : Vector U8 w.size) :
    workDone pf e t (script (encryptProgram k w key b)) 3 =
        keyPrice t k + passes t w * loadPrice t + (chainPrice t w .enc k.rounds + binPrice t w .encLast) ∧
    workDone pf e t (script (decryptProgram k w key b)) 3 =
        keyPrice t k + (k.rounds - 1) * imcPrice t + passes t w * loadPrice t + (chainPrice t w .dec k.rounds + binPrice t w .decLast) := by
  constructor
  · refine (C64_program pf e t (encryptProgram k w key b) [_, _, _] rfl ?_).trans ?_
    · rw [C60_source_is_model, C29_every_target]; exact encrypt_program_returns t k w key b
    · simp only [List.sum_cons, List.sum_nil, Nat.add_zero, Nat.add_assoc]
  · refine (C64_program pf e t (decryptProgram k w key b) [_, _, _] rfl ?_).trans ?_
    · rw [C60_source_is_model, C29_every_target]; exact decrypt_program_returns t k w key b
    · simp only [List.sum_cons, List.sum_nil, Nat.add_zero, Nat.add_assoc]

/-- Concrete: AES-128 on one block costs 82 units with AES-NI, 126 on ARM and 930 with tables. -/
example (pf : Profile) (key : Vector U8 16) (b : Vector U8 16) :
    workDone pf .little .x86 (script (encryptProgram .k128 .x1 key b)) 3 = 82 ∧
    workDone pf .little .table (script (encryptProgram .k128 .x1 key b)) 3 = 930 ∧
    workDone pf .little (.arm false) (script (encryptProgram .k128 .x1 key b)) 3 = 126 :=
  ⟨(C64_encrypt_program pf .little .x86 .k128 .x1 key b).1, (C64_encrypt_program pf .little .table .k128 .x1 key b).1,
    (C64_encrypt_program pf .little (.arm false) .k128 .x1 key b).1⟩
/-- Concrete: four blocks with AVX-512 and VAES cost as much as one block with AES-NI; without, four times the rounds. -/
example (pf : Profile) (key : Vector U8 16) (b : Vector U8 64) :
    workDone pf .little .x86Vaes512 (script (encryptProgram .k128 .x4 key b)) 3 = 82 ∧
    workDone pf .little .x86 (script (encryptProgram .k128 .x4 key b)) 3 = 70 + 4 + 44 :=
  ⟨(C64_encrypt_program pf .little .x86Vaes512 .k128 .x4 key b).1, (C64_encrypt_program pf .little .x86 .k128 .x4 key b).1⟩
/-- Concrete: a chain of three keys on ARM, one unit cheaper per inner round than separate calls. -/
example : price (.arm false) (.chain_enc .x1 0 [1, 2, 3]) = some 5 ∧ separateCalls (.arm false) .x1 .enc 3 = some 7 := ⟨rfl, rfl⟩
end Aes
