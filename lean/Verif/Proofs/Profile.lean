import Verif.Model.Profile
/-
The build profile changes nothing: every function of Verif/Model/Profile.lean equals the function of the main model.
-/
namespace Aes.Profile
open Rust

theorem two_pow_ge (pf : Profile) : 65536 ≤ 2 ^ pf.usizeBits :=
  Nat.pow_le_pow_right (n := 2) (by decide) pf.usize_ge

theorem usub_ok (pf : Profile) {a b : Nat} (h : b ≤ a) : usub pf a b = .ok (a - b) := if_pos h

theorem uadd_ok (pf : Profile) {a b : Nat} (h : a + b < 65536) : uadd pf a b = .ok (a + b) :=
  if_pos (Nat.lt_of_lt_of_le h (two_pow_ge pf))

theorem ok_bind {α β : Type} (a : α) (f : α → M β) : ((.ok a : M α) >>= f) = f a := rfl

/-- The read is in bounds, so the assertion holds and the read is the same. -/
theorem array_from_slice_eq (pf : Profile) (n : Nat) (value : List U8) (offset : Nat)
    (h : offset + n ≤ value.length) : array_from_slice pf n value offset = Aes.array_from_slice n value offset := by
  unfold array_from_slice debugAssert Aes.array_from_slice
  rw [usub_ok pf (by omega : offset ≤ value.length)]
  have : decide (value.length - offset ≥ n) = true := by simp; omega
  cases pf.debugAssertions
  · rfl
  · simp only [if_pos, ok_bind]
    show (assert (decide (value.length - offset ≥ n)) >>= fun _ => rawRead value offset n) = _
    rw [this]; rfl

theorem try_from_slice_eq {T : Type} (pf : Profile) (n : Nat) (f : Vector U8 n → M T) (value : List U8) :
    try_from_slice pf n f value = Aes.try_from_slice n f value := by
  unfold try_from_slice Aes.try_from_slice
  by_cases h : value.length ≥ n
  · rw [if_pos h, if_pos h, array_from_slice_eq pf n value 0 (by omega)]
  · rw [if_neg h, if_neg h]

section common
variable {T : Type} {n : Nat} [AesVec T n]

theorem try_from_eq (pf : Profile) (value : List U8) :
    try_from (T := T) pf value = Aes.try_from value := try_from_slice_eq pf n _ value

theorem chain_enc_pre_eq (pf : Profile) (p : Pre T) (self : T) (keys : List T) :
    chain_enc_pre pf p self keys = Aes.chain_enc_pre p self keys := by
  cases keys with
  | nil => rfl
  | cons k ks =>
    unfold chain_enc_pre Aes.chain_enc_pre
    rw [usub_ok pf (by simp)]
    rfl

theorem chain_dec_pre_eq (pf : Profile) (p : Pre T) (self : T) (keys : List T) :
    chain_dec_pre pf p self keys = Aes.chain_dec_pre p self keys := by
  cases keys with
  | nil => rfl
  | cons k ks =>
    unfold chain_dec_pre Aes.chain_dec_pre
    rw [usub_ok pf (by simp)]
    rfl

theorem chain_enc_eq (pf : Profile) (self : T) (keys : List T) :
    chain_enc pf self keys = Aes.chain_enc self keys := by
  unfold chain_enc Aes.chain_enc
  cases (AesVec.pre : Option (Pre T)) with
  | some p => exact chain_enc_pre_eq pf p self keys
  | none => rfl

theorem chain_dec_eq (pf : Profile) (self : T) (keys : List T) :
    chain_dec pf self keys = Aes.chain_dec self keys := by
  unfold chain_dec Aes.chain_dec
  cases (AesVec.pre : Option (Pre T)) with
  | some p => exact chain_dec_pre_eq pf p self keys
  | none => rfl

theorem try_from_eq' (pf : Profile) : try_from (T := T) pf = Aes.try_from := funext fun s => try_from_eq pf s
theorem chain_enc_eq' (pf : Profile) : chain_enc (T := T) pf = Aes.chain_enc :=
  funext fun s => funext fun k => chain_enc_eq pf s k
theorem chain_dec_eq' (pf : Profile) : chain_dec (T := T) pf = Aes.chain_dec :=
  funext fun s => funext fun k => chain_dec_eq pf s k
end common

theorem foldlM_congr {α β : Type} (l : List α) (f g : β → α → M β) (h : ∀ b, ∀ a ∈ l, f b a = g b a) (b : β) :
    l.foldlM f b = l.foldlM g b := by
  induction l generalizing b with
  | nil => rfl
  | cons a l ih =>
    rw [List.foldlM_cons, List.foldlM_cons, h b a (by simp)]
    refine congrArg (g b a >>= ·) (funext fun c => ih (fun b a ha => h b a (by simp [ha])) c)

section block
variable {B : Type} [AesBlock B]

theorem mem_rangeStep {lo hi i : Nat} (h : i ∈ rangeStep lo hi 1) : lo ≤ i ∧ i < hi := by
  unfold rangeStep at h
  rw [List.mem_range'] at h
  obtain ⟨j, hj, rfl⟩ := h
  simp only [Nat.div_one, Nat.add_sub_cancel] at hj
  omega

theorem dec_round_keys_eq (pf : Profile) {n : Nat} (v : Vector B (n + 1)) :
    dec_round_keys pf v = Aes.dec_round_keys v := by
  unfold dec_round_keys Aes.dec_round_keys
  simp only [usub_ok pf (show 1 ≤ n + 1 by omega), ok_bind]
  congr 1; funext a; congr 1; funext drk
  refine congrArg (· >>= _) (foldlM_congr _ _ _ (fun b i hi => ?_) _)
  rw [usub_ok pf (Nat.le_of_lt (mem_rangeStep hi).2)]; rfl

theorem enc_round_keys_eq (pf : Profile) {n : Nat} (v : Vector B (n + 1)) :
    enc_round_keys pf v = Aes.enc_round_keys v := by
  unfold enc_round_keys Aes.enc_round_keys
  simp only [usub_ok pf (show 1 ≤ n + 1 by omega), ok_bind]
  congr 1; funext a; congr 1; funext drk
  refine congrArg (· >>= _) (foldlM_congr _ _ _ (fun b i hi => ?_) _)
  rw [usub_ok pf (Nat.le_of_lt (mem_rangeStep hi).2)]; rfl

theorem decrypter_eq (pf : Profile) {nr : Nat} (e : AesEnc B nr) : decrypter pf e = e.decrypter := by
  unfold decrypter AesEnc.decrypter; rw [dec_round_keys_eq]
theorem encrypter_eq (pf : Profile) {nr : Nat} (d : AesDec B nr) : encrypter pf d = d.encrypter := by
  unfold encrypter AesDec.encrypter; rw [enc_round_keys_eq]

theorem encrypt_block_eq (pf : Profile) {nr : Nat} (e : AesEnc B nr) (x : B) :
    encrypt_block pf e x = e.encrypt_block x := by
  unfold encrypt_block AesEnc.encrypt_block; simp only [chain_enc_eq]
theorem decrypt_block_eq (pf : Profile) {nr : Nat} (d : AesDec B nr) (x : B) :
    decrypt_block pf d x = d.decrypt_block x := by
  unfold decrypt_block AesDec.decrypt_block; simp only [chain_dec_eq]
omit [AesBlock B] in
theorem encrypt_2_blocks_eq {X2 : Type} [AesBlockX2 B X2] (pf : Profile) {nr : Nat} (e : AesEnc B nr) (x : X2) :
    encrypt_2_blocks pf e x = e.encrypt_2_blocks x := by
  unfold encrypt_2_blocks AesEnc.encrypt_2_blocks; simp only [chain_enc_eq]
omit [AesBlock B] in
theorem decrypt_2_blocks_eq {X2 : Type} [AesBlockX2 B X2] (pf : Profile) {nr : Nat} (d : AesDec B nr) (x : X2) :
    decrypt_2_blocks pf d x = d.decrypt_2_blocks x := by
  unfold decrypt_2_blocks AesDec.decrypt_2_blocks; simp only [chain_dec_eq]
omit [AesBlock B] in
theorem encrypt_4_blocks_eq {X2 X4 : Type} [AesBlockX4 B X2 X4] (pf : Profile) {nr : Nat} (e : AesEnc B nr) (x : X4) :
    encrypt_4_blocks pf e x = e.encrypt_4_blocks x := by
  unfold encrypt_4_blocks AesEnc.encrypt_4_blocks; simp only [chain_enc_eq]
omit [AesBlock B] in
theorem decrypt_4_blocks_eq {X2 X4 : Type} [AesBlockX4 B X2 X4] (pf : Profile) {nr : Nat} (d : AesDec B nr) (x : X4) :
    decrypt_4_blocks pf d x = d.decrypt_4_blocks x := by
  unfold decrypt_4_blocks AesDec.decrypt_4_blocks; simp only [chain_dec_eq]

theorem aes128Dec_eq (pf : Profile) (key : Vector U8 16) :
    Aes128Dec.from (B := B) pf key = Aes.Aes128Dec.from key := by
  unfold Aes128Dec.from Aes.Aes128Dec.from; simp only [decrypter_eq]
theorem aes192Dec_eq (pf : Profile) (key : Vector U8 24) :
    Aes192Dec.from (B := B) pf key = Aes.Aes192Dec.from key := by
  unfold Aes192Dec.from Aes.Aes192Dec.from; simp only [decrypter_eq]
theorem aes256Dec_eq (pf : Profile) (key : Vector U8 32) :
    Aes256Dec.from (B := B) pf key = Aes.Aes256Dec.from key := by
  unfold Aes256Dec.from Aes.Aes256Dec.from; simp only [decrypter_eq]
end block

/-! ### The modules -/

namespace Table

theorem load_u32_be_eq (pf : Profile) (s : List U8) {o : Nat} (h : o < 1000) :
    load_u32_be pf s o = Aes.Table.load_u32_be s o := by
  unfold load_u32_be Aes.Table.load_u32_be
  rw [uadd_ok pf (by omega), uadd_ok pf (by omega), uadd_ok pf (by omega), uadd_ok pf (by omega)]
  rfl

theorem new_eq (pf : Profile) : new pf = Aes.Table.new := by
  funext v
  unfold new Aes.Table.new
  simp only [load_u32_be_eq pf _ (show 0 < 1000 by decide), load_u32_be_eq pf _ (show 4 < 1000 by decide),
    load_u32_be_eq pf _ (show 8 < 1000 by decide), load_u32_be_eq pf _ (show 12 < 1000 by decide)]

theorem from_bytes_eq (pf : Profile) : from_bytes pf = Aes.Table.from_bytes := by
  funext v
  unfold from_bytes Aes.Table.from_bytes
  rw [new_eq]

theorem keygen_128_eq (pf : Profile) : keygen_128 pf = Aes.Table.keygen_128 := by
  funext v
  unfold keygen_128 Aes.Table.keygen_128
  rw [from_bytes_eq]

theorem keygen_192_eq (pf : Profile) : keygen_192 pf = Aes.Table.keygen_192 := by
  funext v
  unfold keygen_192 Aes.Table.keygen_192
  simp only [load_u32_be_eq pf _ (show 0 < 1000 by decide), load_u32_be_eq pf _ (show 4 < 1000 by decide),
    load_u32_be_eq pf _ (show 8 < 1000 by decide), load_u32_be_eq pf _ (show 12 < 1000 by decide),
    load_u32_be_eq pf _ (show 16 < 1000 by decide), load_u32_be_eq pf _ (show 20 < 1000 by decide)]

theorem keygen_256_eq (pf : Profile) : keygen_256 pf = Aes.Table.keygen_256 := by
  funext v
  unfold keygen_256 Aes.Table.keygen_256
  simp only [from_bytes_eq, try_from_slice_eq]

theorem block_eq (pf : Profile) : block pf = (inferInstance : AesBlock Aes.Table.Block) := by
  unfold block
  rw [new_eq, from_bytes_eq, keygen_128_eq, keygen_192_eq, keygen_256_eq]
  rfl
end Table

namespace X86
theorem keygen_192_eq (pf : Profile) : keygen_192 pf = Aes.X86.keygen_192 := by
  funext v
  unfold keygen_192 Aes.X86.keygen_192
  simp only [try_from_slice_eq]
theorem keygen_256_eq (pf : Profile) : keygen_256 pf = Aes.X86.keygen_256 := by
  funext v
  unfold keygen_256 Aes.X86.keygen_256
  simp only [try_from_slice_eq]
theorem block_eq (pf : Profile) : block pf = (inferInstance : AesBlock Aes.X86.Block) := by
  unfold block
  rw [keygen_192_eq, keygen_256_eq]
  rfl
end X86

namespace Riscv64
theorem keygen_256_eq (pf : Profile) : keygen_256 pf = Aes.Riscv64.keygen_256 := by
  funext v
  unfold keygen_256 Aes.Riscv64.keygen_256
  simp only [try_from_slice_eq]
theorem block_eq (pf : Profile) : block pf = (inferInstance : AesBlock Aes.Riscv64.Block) := by
  unfold block
  rw [keygen_256_eq]
  rfl
end Riscv64

namespace Columns
variable (pf : Profile) (first : U32 → U32 → U32 → U32) (fifth : U32 → U32 → U32)

theorem step_128_eq (c : Vector U32 44) {i : Nat} (h : i < 1000) : step_128 pf first c i = Aes.Columns.step_128 first c i := by
  unfold step_128 Aes.Columns.step_128
  have := fun k (hk : k < 100) => uadd_ok pf (show i + k < 65536 by omega)
  simp only [this 0 (by decide), this 1 (by decide), this 2 (by decide), this 3 (by decide), this 4 (by decide),
    this 5 (by decide), this 6 (by decide), this 7 (by decide), ok_bind]

theorem step_192_eq (c : Vector U32 52) {i : Nat} (h : i < 1000) : step_192 pf first c i = Aes.Columns.step_192 first c i := by
  unfold step_192 Aes.Columns.step_192
  have := fun k (hk : k < 100) => uadd_ok pf (show i + k < 65536 by omega)
  simp only [this 0 (by decide), this 1 (by decide), this 2 (by decide), this 3 (by decide), this 4 (by decide),
    this 5 (by decide), this 6 (by decide), this 7 (by decide), this 8 (by decide), this 9 (by decide),
    this 10 (by decide), this 11 (by decide), ok_bind]

theorem step_256_eq (c : Vector U32 60) {i : Nat} (h : i < 1000) :
    step_256 pf first fifth c i = Aes.Columns.step_256 first fifth c i := by
  unfold step_256 Aes.Columns.step_256
  have := fun k (hk : k < 100) => uadd_ok pf (show i + k < 65536 by omega)
  simp only [this 0 (by decide), this 1 (by decide), this 2 (by decide), this 3 (by decide), this 4 (by decide),
    this 5 (by decide), this 6 (by decide), this 7 (by decide), this 8 (by decide), this 9 (by decide),
    this 10 (by decide), this 11 (by decide), this 12 (by decide), this 13 (by decide), this 14 (by decide),
    this 15 (by decide), ok_bind]

theorem columns_128_eq (e : Endian) (key : Vector U8 16) :
    columns_128 pf first e key = Aes.Columns.columns_128 first e key := by
  unfold columns_128 Aes.Columns.columns_128
  have : ∀ i ∈ rangeStep 0 40 4, i < 1000 := by decide
  simp only [foldlM_congr _ _ _ (fun c i hi => step_128_eq pf first c (this i hi))]

theorem columns_192_eq (e : Endian) (key : Vector U8 24) :
    columns_192 pf first e key = Aes.Columns.columns_192 first e key := by
  unfold columns_192 Aes.Columns.columns_192
  have : ∀ i ∈ rangeStep 0 42 6, i < 1000 := by decide
  simp only [foldlM_congr _ _ _ (fun c i hi => step_192_eq pf first c (this i hi))]

theorem columns_256_eq (tail : U32 → U32 → U32 → U32) (e : Endian) (key : Vector U8 32) :
    columns_256 pf first fifth tail e key = Aes.Columns.columns_256 first fifth tail e key := by
  unfold columns_256 Aes.Columns.columns_256
  have : ∀ i ∈ rangeStep 0 48 8, i < 1000 := by decide
  simp only [foldlM_congr _ _ _ (fun c i hi => step_256_eq pf first fifth c (this i hi))]
end Columns

namespace Bitslice
theorem block_eq (pf : Profile) (e : Endian) : block pf e = (inferInstance : AesBlock (Aes.Bitslice.Block e)) := by
  have h1 : keygen_128 pf e = Aes.Bitslice.keygen_128 e := by
    funext v; unfold keygen_128 Aes.Bitslice.keygen_128; rw [Columns.columns_128_eq]
  have h2 : keygen_192 pf e = Aes.Bitslice.keygen_192 e := by
    funext v; unfold keygen_192 Aes.Bitslice.keygen_192; rw [Columns.columns_192_eq]
  have h3 : keygen_256 pf e = Aes.Bitslice.keygen_256 e := by
    funext v; unfold keygen_256 Aes.Bitslice.keygen_256; rw [Columns.columns_256_eq]
  unfold block
  rw [h1, h2, h3]
  rfl
end Bitslice

namespace Arm
theorem block_eq (pf : Profile) (e : Bool) : block pf e = (inferInstance : AesBlock (Aes.Arm.Block e)) := by
  have h1 : keygen_128 pf e = Aes.Arm.keygen_128 e := by
    funext v; unfold keygen_128 Aes.Arm.keygen_128; rw [Columns.columns_128_eq]
  have h2 : keygen_192 pf e = Aes.Arm.keygen_192 e := by
    funext v; unfold keygen_192 Aes.Arm.keygen_192; rw [Columns.columns_192_eq]
  have h3 : keygen_256 pf e = Aes.Arm.keygen_256 e := by
    funext v; unfold keygen_256 Aes.Arm.keygen_256; rw [Columns.columns_256_eq]
  unfold block
  rw [h1, h2, h3]
  rfl
end Arm

namespace Riscv32
theorem block_eq (pf : Profile) : block pf = (inferInstance : AesBlock Aes.Riscv32.Block) := by
  have h1 : keygen_128 pf = Aes.Riscv32.keygen_128 := by
    funext v; unfold keygen_128 Aes.Riscv32.keygen_128; rw [Columns.columns_128_eq]
  have h2 : keygen_192 pf = Aes.Riscv32.keygen_192 := by
    funext v; unfold keygen_192 Aes.Riscv32.keygen_192; rw [Columns.columns_192_eq]
  have h3 : keygen_256 pf = Aes.Riscv32.keygen_256 := by
    funext v; unfold keygen_256 Aes.Riscv32.keygen_256; rw [Columns.columns_256_eq]
  unfold block
  rw [h1, h2, h3]
  rfl
end Riscv32

namespace DefaultX2
theorem vec_eq (pf : Profile) (B : Type) [AesBlock B] :
    vec pf B = (inferInstance : AesBlockX2 B (Aes.DefaultX2.X2 B)) := by
  have h1 : new (B := B) pf = Aes.DefaultX2.new := by
    funext v; unfold new Aes.DefaultX2.new
    rw [array_from_slice_eq _ _ _ _ (by simp), array_from_slice_eq _ _ _ _ (by simp)]
  have h2 : from_bytes (B := B) pf = Aes.DefaultX2.from_bytes := by
    funext v; unfold from_bytes Aes.DefaultX2.from_bytes; rw [h1]
  unfold vec
  rw [h1, h2]
  rfl
end DefaultX2

namespace DefaultX4
theorem vec_eq (pf : Profile) (B X2 : Type) [AesBlockX2 B X2] :
    vec pf B X2 = (inferInstance : AesBlockX4 B X2 (Aes.DefaultX4.X4 X2)) := by
  have h1 : new (X2 := X2) (B := B) pf = Aes.DefaultX4.new := by
    funext v; unfold new Aes.DefaultX4.new
    rw [array_from_slice_eq _ _ _ _ (by simp), array_from_slice_eq _ _ _ _ (by simp)]
  have h2 : from_bytes (X2 := X2) (B := B) pf = Aes.DefaultX4.from_bytes := by
    funext v; unfold from_bytes Aes.DefaultX4.from_bytes; rw [h1]
  unfold vec
  rw [h1, h2]
  rfl
end DefaultX4

/-! ### The crate -/

theorem block_eq (pf : Profile) (t : Target) : block pf t = (inferInstance : AesBlock t.Block) := by
  cases t with
  | table => exact Table.block_eq pf
  | bitslice e => exact Bitslice.block_eq pf e
  | x86 => exact X86.block_eq pf
  | x86Vaes => exact X86.block_eq pf
  | x86Vaes512 => exact X86.block_eq pf
  | arm b => exact Arm.block_eq pf b
  | riscv64 => exact Riscv64.block_eq pf
  | riscv32 => exact Riscv32.block_eq pf

theorem blockX2_eq (pf : Profile) (t : Target) : blockX2 pf t = (inferInstance : AesBlockX2 t.Block t.X2) := by
  cases t with
  | table => exact (congrArg (@DefaultX2.vec pf _) (Table.block_eq pf)).trans (DefaultX2.vec_eq pf Aes.Table.Block)
  | bitslice e =>
    exact (congrArg (@DefaultX2.vec pf _) (Bitslice.block_eq pf e)).trans (DefaultX2.vec_eq pf (Aes.Bitslice.Block e))
  | x86 => exact (congrArg (@DefaultX2.vec pf _) (X86.block_eq pf)).trans (DefaultX2.vec_eq pf Aes.X86.Block)
  | x86Vaes => rfl
  | x86Vaes512 => rfl
  | arm b => exact (congrArg (@DefaultX2.vec pf _) (Arm.block_eq pf b)).trans (DefaultX2.vec_eq pf (Aes.Arm.Block b))
  | riscv64 => exact (congrArg (@DefaultX2.vec pf _) (Riscv64.block_eq pf)).trans (DefaultX2.vec_eq pf Aes.Riscv64.Block)
  | riscv32 => exact (congrArg (@DefaultX2.vec pf _) (Riscv32.block_eq pf)).trans (DefaultX2.vec_eq pf Aes.Riscv32.Block)

theorem blockX4_eq (pf : Profile) (t : Target) : blockX4 pf t = (inferInstance : AesBlockX4 t.Block t.X2 t.X4) := by
  cases t with
  | x86Vaes512 => rfl
  | table => exact (congrArg (@DefaultX4.vec pf _ _) (blockX2_eq pf .table)).trans (DefaultX4.vec_eq pf _ _)
  | bitslice e => exact (congrArg (@DefaultX4.vec pf _ _) (blockX2_eq pf (.bitslice e))).trans (DefaultX4.vec_eq pf _ _)
  | x86 => exact (congrArg (@DefaultX4.vec pf _ _) (blockX2_eq pf .x86)).trans (DefaultX4.vec_eq pf _ _)
  | x86Vaes => exact (congrArg (@DefaultX4.vec pf _ _) (blockX2_eq pf .x86Vaes)).trans (DefaultX4.vec_eq pf _ _)
  | arm b => exact (congrArg (@DefaultX4.vec pf _ _) (blockX2_eq pf (.arm b))).trans (DefaultX4.vec_eq pf _ _)
  | riscv64 => exact (congrArg (@DefaultX4.vec pf _ _) (blockX2_eq pf .riscv64)).trans (DefaultX4.vec_eq pf _ _)
  | riscv32 => exact (congrArg (@DefaultX4.vec pf _ _) (blockX2_eq pf .riscv32)).trans (DefaultX4.vec_eq pf _ _)

theorem decFromOf_eq (pf : Profile) (B : Type) [AesBlock B] : decFromOf pf B = Client.decFromOf B := by
  funext k v
  cases k
  · exact aes128Dec_eq pf v
  · exact aes192Dec_eq pf v
  · exact aes256Dec_eq pf v

theorem encryptOf_eq (pf : Profile) (t : Target) {nr : Nat} (e : AesEnc t.Block nr) :
    encryptOf pf t e = Client.encryptOf t e := by
  funext w x
  cases w
  · exact encrypt_block_eq (B := t.Block) pf e x
  · exact encrypt_2_blocks_eq (X2 := t.X2) pf e x
  · exact encrypt_4_blocks_eq (X4 := t.X4) pf e x

theorem decryptOf_eq (pf : Profile) (t : Target) {nr : Nat} (d : AesDec t.Block nr) :
    decryptOf pf t d = Client.decryptOf t d := by
  funext w x
  cases w
  · exact decrypt_block_eq (B := t.Block) pf d x
  · exact decrypt_2_blocks_eq (X2 := t.X2) pf d x
  · exact decrypt_4_blocks_eq (X4 := t.X4) pf d x

theorem crate_eq (pf : Profile) (t : Target) : crate pf t = Client.crate t := by
  unfold crate
  rw [block_eq, blockX2_eq, blockX4_eq]
  unfold crateOf
  simp only [decFromOf_eq, encryptOf_eq, decryptOf_eq, decrypter_eq, encrypter_eq,
    try_from_eq', chain_enc_eq', chain_dec_eq']
  rfl

end Aes.Profile
