# Formal model of sayantn/aes (`aes_crypto` 1.3.0) in Lean 4

The subject is `/repo` (read as text, never built or run). The Lean project is `/verif/lean` (`lake build`).

## 1. Architecture

| layer | files | role |
|---|---|---|
| Rust semantics | `Verif/Rust.lean` | fixed-width integers (`BitVec`), `Except Fault` (panic / undefined behaviour), checked indexing, slices, raw reads and writes, endianness, `chunks_exact`, `step_by` |
| Specification | `Verif/Spec/*.lean` | `Fips197` is written from the standard (GF(2^8), S-box as inverse + affine map, ShiftRows, MixColumns, KeyExpansion, Cipher, InvCipher, EqInvCipher) and shares nothing with the model of the code; `Block` (byte-wise operations), `Text` (hex/binary/Debug text), `Reference` (what a client of the API should observe), `Recover` (key expansion backwards), `KeyVariants`, `Rv32` (what the two wrong back-ends compute instead) |
| ISA semantics | `Verif/Model/Isa{X86,Arm,Riscv}.lean` | meaning of the intrinsics the code calls (Intel SDM, Arm ARM, RISC-V Zkne/Zknd); trusted |
| Model | `Verif/Model/*.lean` | the crate, function by function, each definition citing file:lines |
| Source text | `Verif/Gen/*.lean` | the crate translated from the text of /repo/src by `tools/rust2lean.py`, and proved equal to the model (C60); `Verif/Gen/Leak*.lean` with an event for every operation, branch and memory access, proved equal to the leakage model (C61) |
| Proofs | `Verif/Proofs/*.lean` | helper lemmas and refinement proofs |
| Properties | `Verif/Properties/*.lean` | the theorems named in `MANIFEST.json` (`Cnn_*`), with non-vacuity examples |

Conventions. `[u8; N]` is `Vector (BitVec 8) N`; `&[u8]` is `List (BitVec 8)`, of any length; a `&mut` parameter is returned. A panic
is `Except.error .panic`, a raw pointer access outside its allocation is `Except.error .ub`; `= .ok v` therefore says "does not panic, has
no undefined behaviour, and returns `v`".

The cfg-dependent choice of implementation is the enumeration `Target` (`Model/Target.lean`: table, bitslice of either endianness, AES-NI with
default / VAES / VAES+AVX-512 wide types, Arm 64/32 bit, RV64, RV32) with one instance of the API classes (`Model/Api.lean`) per target. The `cfg_if!`
ladders are modelled separately as functions of the configuration (`Model/Config.lean`) and tied to `Target` by C33. lib.rs is modelled
once, generically over the API classes (`Model/Lib.lean`), as its macros are in the source.

Proof structure: each back-end is shown to satisfy laws on the bytes its values stand for (`Proofs/Lawful.lean`: `LawfulVec`, `LawfulEnc`, `LawfulDec`,
`LawfulPre`, `LawfulKeygen`, `LawfulX2`, `LawfulX4`); everything in lib.rs is proved from these laws; `Proofs/Target.lean` collects the
instances. The laws appear in no property statement: those speak of API calls and FIPS-197 only.

## 2. What is modelled, file by file

| source | modelled | model |
|---|---|---|
| src/lib.rs:3-29, 44-121, 333-347 (feature gates, module selection) | yes | `Model/Config.lean`, `Model/Target.lean` |
| src/lib.rs (all `impl_common_ops!`, `array_from_slice`, `try_from_slice`, `u128` conversions, chains, `pre_enc`/`pre_dec` macro, `enc_round_keys`, `dec_round_keys`, `AesEncrypt`/`AesDecrypt`, `implement_aes!`) | yes | `Model/Lib.lean` |
| src/lib.rs formatting impls and the derived `Debug`s | yes, over a model of the fragment of `core::fmt` they use | `Model/Fmt.lean` |
| src/aes_table_based.rs, including the ten tables (2560 entries, copied mechanically) | yes | `Model/Table.lean`, `Model/TableData.lean` |
| src/aes_bitslice.rs | yes, both endiannesses | `Model/Bitslice.lean`, `Model/Columns.lean` (key schedule loop) |
| src/aes_x86.rs, src/aesni_x2.rs, src/aesni_x4.rs | yes, over `IsaX86` | `Model/X86.lean`, `NiX2.lean`, `NiX4.lean` |
| src/aes_arm.rs (AArch64/Arm64EC and 32-bit Arm branches) | yes, over `IsaArm` | `Model/Arm.lean` |
| src/aes_riscv64.rs, src/aes_riscv32.rs | yes, over `IsaRiscv` | `Model/Riscv64.lean`, `Riscv32.lean` |
| src/aesdefault_x2.rs, src/aesdefault_x4.rs | yes, generic over the block type | `Model/DefaultX2.lean`, `DefaultX4.lean` |
| the public API as used by a client | yes: a register machine whose calls cover the public API, run adaptively | `Model/Client.lean` |
| src/lib.rs and the default wide modules over any `AesBlock` module | yes | `Model/Over.lean` |
| which operations, branches and memory indices execute | yes, a second, instrumented model of the whole crate, proved to erase to the first (C34_erasure) | `Model/Leak*.lean` |
| src/tests.rs | yes: the seven tests as programs over the model (panic messages not modelled), and translated from the text; its vectors are also examples in `Properties/Vectors.lean` | `Model/Tests.lean`, `Gen/Tests*.lean` |
| .github/workflows, ci/run-docker.sh | yes: the configuration each job compiles and whether it runs the tests (not the style job, the containers, the lints) | `Model/Ci.lean` |
| the declarations: structs with derives and `repr`, impl headers, statics | yes, generated | `Gen/Items.lean` (C69) |
| `#[inline]`, `#[must_use]`, docs, Cargo metadata; in the other models also `repr` | no: no effect on behaviour, except that `repr(transparent)`/`repr(C)` layout facts used by pointer casts and `transmute` are assumed as in the Rust reference | |
| `Hash`/`Ord`/serde | the crate has none | |
| `store_to` on process memory, byte by byte, including what a panicking or interrupted call leaves behind | yes | `Model/Store.lean` |
| build profiles: `debug_assert!`, overflow checks, width of `usize` | yes | `Model/Profile.lean` |
| every raw pointer of the crate, under the aliasing rules (Stacked Borrows) | yes | `Model/Borrow.lean` |
| threads that call the crate on a shared memory | yes: any number, any schedule of single byte loads and stores | `Model/Threads.lean` |
| `Clone`/`Copy` | values; copying is the identity in the model | |

Each definition in `Model/` cites its file and lines, and says where it simplifies. The systematic simplifications are:

* loads and stores through SIMD intrinsics are byte-array conversions with a bounds check (`rawRead`, `rawWrite`): alignment is not modelled because every load
  and store the code uses is an unaligned one;
* the `keygen_*` that view the zero-initialised (`mem::zeroed()`) array of round keys as a slice of 32-bit columns (bitslice, Arm, RV32) are modelled as checked reads and writes of an array of
  columns that is then read back as blocks in the byte order of the target (`Columns.lean`); a second model on raw bytes with addresses, alignment and bounds (`Mem.lean`) is proved equal to it (C48), and a third under the aliasing rules (C62);
* `mem::transmute` of a tuple in aes_riscv64.rs `keygen_192` is modelled as the identity on the fields in order. Rust does not guarantee that layout for tuples: `Transmute.lean` makes the layout a parameter and C49 proves that declaration order is exactly what the code needs.

## 3. Properties: how each is modelled and proved

`properties.jsonl` holds the statements, `MANIFEST.json` the theorem names.

* **C01-C04** `Properties/Cipher.lean`. Refinement: each back-end's round equals the FIPS round on byte views; key expansion word by word; the chain loops
  by induction on the key slice; decryption via the equivalent inverse cipher (InvMixColumns moved through AddRoundKey).
* **C05, C06, C31** for arbitrary round keys and any number of rounds > 0, then specialised to the three key sizes.
* **C07, C08, C25, C30** `Properties/Wide.lean`: lane laws of the three wide implementations.
* **C09, C11, C38, C10** `Properties/KeySchedule.lean`; C10 by induction on the conversion history.
* **C12-C15, C36, C37, C39** `Properties/Rounds.lean`. Facts about single bytes are complete case analyses (256 values) in the kernel, lifted to all states by lane lemmas.
* **C16, C17, C40** `Properties/Chain.lean`: induction over the key slice, any length.
* **C18-C24** `Properties/Data.lean`: slices of any length.
* **C26-C28, C43** `Properties/Fmt.lean`: formatting as functions from flags and values to calls on an abstract writer that may fail; parse-back by induction.
* **C29, C44** `Properties/Client.lean`: forward simulation of the API machine by the reference machine of `Spec/Reference.lean`, by induction over the run of an adaptive client. riscv32 is simulated in the same way by the byte machine of `Spec/Rv32Reference.lean` (`Proofs/ClientHom.lean`, `Proofs/ClientRv32.lean`), so every target is characterised (`C29_every_target`, `C29_is_aes_iff`).
* **C32** `Properties/NoFault.lean`. **C35** `Properties/Tables.lean`: all 256 indices of the ten tables, in the kernel.
* **C33** `Properties/Config.lean`: all configurations satisfying `Cfg.Valid` (rustc's implied features); the failing configurations are characterised exactly. `Properties/Deployment.lean` composes this with C29: from any configuration to what any client sees.
* **C34** `Properties/Leak.lean`: leakage traces of whole client histories; exceptions proved to be real. Which calls are claimed silent is `Spec/Leakage.lean`. `Properties/ConstantTime.lean` composes this with C33: a configuration that compiles is constant time exactly if `constant-time` is on or an accelerated implementation is found (the README's promise).
* **C41** `Properties/Riscv32.lean`, **C42** `Properties/BigEndian.lean`: what the wrong back-ends compute, for all inputs, and concrete refutations evaluated by the kernel.
* **C45, C46** `Properties/Bulk.lean`: induction over the list of calls; C46 composes two machines through the bytes of the message.
* **C47** `Properties/RoundLaws.lean`: from the round laws and injectivity of the byte view, lifted to the wide types by lanes.
* **C48** `Properties/Mem.lean`: simulation between the column array and the bytes of one allocation at an arbitrary address (invariant: the bytes are the image of the columns).
* **C49** `Properties/Layout.lean`: declaration order gives C09; for the converse, one key whose 26 words are pairwise different (checked by the kernel) separates all layouts.
* **C50** `Properties/Store.lean`: `store_to` once more, as the sequence of bytes it writes to a process memory that survives a panic (`Model/Store.lean`); refinement between it and the list model (C50_refines).
* **C51** `Properties/Tests.lean`: the test programs, run on an arbitrary target. Passing is derived from C01-C09 on the target plus one kernel run of each vector on the table-based code; the two failing targets are single executions, run in the kernel. `Properties/SourceTests.lean`: the same of the tests as `tools/rust2lean.py` translates them from src/tests.rs and src/aes_bitslice.rs:410-435 (`Gen/Tests*.lean`; `hex::FromHex` is `from_hex` in `Gen/Prelude.lean`, `lazy_static` values are constants), run on the translated functions.
* **C52** `Properties/Recover.lean`: the key expansion run backwards (`Spec/Recover.lean`) is its inverse, by induction on the distance; for any transformation of `temp`, hence on every target.
* **C53** `Properties/Threads.lean`: threads as sequences of byte loads and stores on one memory (`Model/Threads.lean`); non-interference by induction over the schedule; what one worker writes by induction over its chunks. That the crate has no mutable state of its own is read off the source (no `static mut`, no interior mutability) and built into the model; the memory of C53 is sequentially consistent; C67 removes that assumption. `Properties/Message.lean` adds fair schedulers: counting turns, every thread gets enough of them.
* **C54** `Properties/Diffusion.lean`: the specification of “differ exactly at” and “distance” is `Spec/Diff.lean`; proved on FIPS states (`Proofs/Diffusion.lean`: injectivity of the S-box and of multiplication by a non-zero coefficient, non-vanishing 2×2 minors of the MixColumns matrix) and transported to the API through C12–C14.
* **C31** (every target) `Properties/Permutation.lean`: where C05/C06 hold, from them; on RISC-V-32 by an explicit inverse of `rv32Cipher`/`rv32Decipher`; wide types through C07/C08.
* **C56** `Properties/Trail.lean`: the wide trail argument (`Proofs/Trail.lean`) on patterns of differing bytes: branch number five per column (C54) plus row shifts that spread a column over all columns; induction over the key list, transported to the API through C12, C13 and C41.
* **C57** `Properties/Contract.lean`, `Properties/Repair.lean`: the contract is a structure of statements about API calls and FIPS-197; it implies the laws of `Proofs/Lawful.lean`, and `Proofs/Over.lean` carries these to all programs by the simulation of C29. The repaired modules are not in the repository: they are the model's with the fields given there replaced, and are shown to meet the contract. `C57_over_is_crate` checks that the crate over a backend is the crate of C29.
* **C58** `Properties/Profile.lean`: the functions with a `debug_assert!` or `usize` arithmetic, and the crate built from them, with debug assertions, overflow checks and the width of `usize` as parameters (`Model/Profile.lean`; an underflow panics or wraps, an assertion is evaluated or not). Proved equal to the main model for every profile, hence the same for every client.
* **C59** `Properties/Differential.lean`: `AtMost P N` (no list without duplicates of things with `P` is longer than `N`) and `weight` in `Spec/Count.lean`. That GF(2^8) is a field (`Proofs/Field.lean`) makes SBOX differentially 4-uniform; a round keeps a difference with one of at most `4^w 256^(16-w)` blocks, and the key added last makes (block, key) and (block, output) correspond, so the counts multiply over rounds, by induction (`Proofs/Differential.lean`); C56 bounds the weight. `Proofs/Count.lean` uses Mathlib's finite sets and products.
* **C60** `Properties/Source.lean`: `tools/rust2lean.py` parses every file of /repo/src and prints each function, macro expansion, trait impl, table, `Debug`/`Display`/hex impl and `cfg_if!` ladder as Lean (`Verif/Gen`: one file per Rust module, `LibStd` and `LibPre` for the two ways `lib.rs` can compile, `Ladders`). `Gen/Crate.lean` assembles the generated functions into `RustSrc.crate : Client.Impl` and `RustSrc.compiled : Cfg → Option Impl`. `Proofs/Gen*.lean` prove each equal to its hand-written counterpart, for every build profile, byte order and target, so every theorem about a client of the model is one about the translated text. `tools/gencheck.py` lists what of the hand-written model `RustSrc.compiled` depends on: types, API classes, `core::fmt`, instructions, machine arithmetic; no function that models a function of the crate.
* **C61** `Properties/SourceLeak.lean`: the leakage theorems, of the source text. The same translator prints each function a second time in the monad of `Model/Leak.lean` (`Verif/Gen/Leak*.lean`): every operator on data, byte conversion, intrinsic, memory access and data-dependent branch of the text is an event, in the order in which Rust evaluates them. `Gen/LeakCrate.lean` assembles them; `Proofs/GenLeak*.lean` prove that every function has exactly the trace (and result) of the hand-written leakage model, in every build profile, on every target. So C34 holds of the translated text; in addition `C61_table_leaks_key` states the key leak of the table-based code for whole programs, and `C61_every_configuration` says which builds of the text are constant time. No events (conventions of the model): arithmetic on `usize` lengths and loop counters, overflow checks and `debug_assert!` (none depends on data: they never fail, C58), moves between block types and tuples, `const fn`s applied to literals, formatting (excluded from the claims).
* **C62** `Properties/Borrow.lean`: aliasing. `Spec/Borrows.lean` is Stacked Borrows for plain bytes (borrow stacks per byte, tags, protectors, raw pointers); `Model/Borrow.lean` has every function of the crate that uses a raw pointer (`store_to` of all types, `array_from_slice`, `try_from`, `new`, `From<T> for [u8; N]`, the nine key expansions over `from_raw_parts_mut`) as a program on that memory: passing a reference, calling a method on it and returning it are retags. Proved by keeping the shape of the stacks through the calls (`Proofs/Borrow*.lean`); the key expansions by simulation of `Model/Columns.lean`. Validity of the caller's slice is exactly the needed hypothesis (otherwise: undefined behaviour), and `C62_history` is an induction over sequences of calls. Not modelled: Tree Borrows, two-phase borrows, unwinding. `Gen/Borrow.lean` is the translation of the text of these functions (`tools/rust2lean.py`, class `PtrTr`: it inserts the retags of arguments, method receivers and returned references; `Gen/BorrowPrelude.lean` says what the library functions and intrinsics do), `Gen/BorrowCrate.lean` picks those a build has, and `Properties/SourceBorrow.lean` proves that they are the functions of the model (`C62_source*`), so the theorems hold of the text.
* **C63** `Properties/Cpu.lean`: CPU extensions. `Spec/Cpu.lean` says which extension an instruction belongs to and what `core::arch` declares for each intrinsic. The instructions of a run are the `instr` events of the translated source (C61). `Proofs/Instr*.lean` bound the names in the trace of every function of every module by induction over the code (`Only`), so over every client and number of calls; requirements are shown necessary by a concrete client, and the certain crash for all keys and data by moving the evaluation of one run to all runs of the same shape with the constant-time theorem (C34). `Gen/Calls.lean` lists the intrinsics that each module names; the generated `cfg` ladders select among the modules. Trusted: the tables of `Spec/Cpu.lean`, and that an intrinsic is compiled to the instruction of its name.
* **C64** `Properties/Cost.lean`: cost. `Spec/Cost.lean` says what counts as work and is a plain price list (numbers per implementation; `passes` for the wide types). `Proofs/Cost*.lean` add up the trace of every function of every module (`Costs m k`: if the run returns, its work is `k`), the chains by induction over the list of keys, `encrypt` for any number of rounds. `C64_price`: after any history of any client, a listed call that returns does exactly the listed work (so it cannot depend on data). `C64_program`: the bill of a list of calls of any length. `C64_chain`, `C64_wide`: what the documentation promises. `C64_encrypt_program`: whole programs, for every key and value. Not covered: time, caches, what the compiler removes or vectorises.
* **C65** `Properties/Linear.lean`: `Spec/Linear.lean` has the imbalance of an approximation as a sum of signs over all blocks, trails and sums over lists of masks. The S-box table is checked by the kernel: the 256 bits `a·x + b·SBOX(x)` are packed into one number (nine binary digits each, `Proofs/LinearSbox.lean`), so adding masks is `xor`, counting is a remainder modulo 511, and all 65535 pairs of masks are sums of 16 packed numbers; that the packing means what it says is proved. The branch number of the transposed MixColumns follows from that of MixColumns (C56) by counting: four bytes of a column and its image determine the column, so they take all values, and no mask on them is constant (`Proofs/LinearMix.lean`). A round's imbalance is the product over its bytes (`Proofs/Linear.lean`); trails by the pattern argument of C56; composition by orthogonality, the average over keys by Parseval. `example`: the one-round bound is attained, with every key.
* **C66** `Properties/Symmetry.lean`: `Spec/Symmetry.lean` has the rotation of the columns and `FourEqualColumns`. The byte functions that C12-C14 and C41 give for the rounds commute with the rotation step by step; the chains by induction on the keys. Round keys: a word with an odd index is the sum of its predecessor and the word `Nk` before, so equal columns in a row of round keys make earlier words zero, and a zero word does not stay zero through SUBWORD; one argument for the three key sizes and the three variants of the schedule (FIPS-197, C41, C42).
* **C67** `Properties/WeakMemory.lean`: `Spec/WeakMemory.lean` bounds what a coherent memory may do from above (a load returns the thread's own last store, the initial value, or any store of another thread at any time; only each thread's own order counts). With disjoint footprints the second case never occurs, so each thread is where it would be alone (induction over its actions), and so is the memory; that is the sequentially consistent run with the same turns. Conversely every schedule is an execution (induction over it). `C67_shared_encrypter`/`_decrypter` (`Properties/SharedKeys.lean`): the round keys in memory too, in any representation that can be read back, loaded by every call. Not modelled: that the code performs wider accesses than bytes (one is several here, which allows more). `Properties/Message.lean` composes the chunks to a whole message, whatever the division (`Divides`: in place, on block boundaries, all covered, none twice), and two such runs on two targets to the identity.
* **C68** `Properties/Integral.lean`: `Spec/Integral.lean` has the XOR of a list of blocks and sets with free bytes. A free byte makes a column differ everywhere after one round and the block after two (as in C54, here for all three forms of round), so each byte is an injective function of it; the third round's mix is additive and the key cancels, the number of blocks being even; a free diagonal becomes a free column in one round (the round is onto). Sets are lists without repetition, summed in any order.
* **C69** `Properties/Types.lean`: `tools/items.py` writes every struct, impl header and static of the source text (all sides of every cfg, macros instantiated or, for headers, with their variables) into `Gen/Items.lean`; `Spec/Types.lean` says what drop glue, auto traits and layouts are (inductive definitions; of a default `repr` only what the reference guarantees). Induction over these; the finite lists are gone through by the kernel. Trusted: that tool, and that the external types (`__m128i`, ..., `uint8x16_t`) are plain data. `Properties/TypesMem.lean` joins the layout with C48.
* **C70** `Properties/Remains.lean`: the key is the beginning of the key schedule (every target), the decrypter ends with it; with C67 (the shared encrypter is never stored to) and C69.
* **C71** `Properties/SameApi.lean`: `tools/items.py` also lists, per backend file and for `lib.rs`, trait headers, derives and public signatures; what the generated ladders select is compared for all pairs of configurations. Rust's rule for constants in patterns is the inductive `AsPattern` of `Spec/Types.lean`.
* **C72** `Properties/Modes.lean`: client programs for CBC and counter mode over pieces of one, two and four blocks (C45's), against `Spec/Modes.lean` (SP 800-38A); induction over the pieces; interoperability as in C46, round trips of any encrypter from C05 and C31 (every target), the key stream from C31 and C19.
* **C55** `Properties/Ci.lean`: the CI jobs as configurations (`Model/Ci.lean`, which cites the workflow files); rustc's default features of a triple and its feature implications are trusted. Finite case analysis over jobs and targets, joined to all clients through C29 and to the test suite through C51.

## 4. Disagreements between the code and its documentation (findings)

1. **RISC-V-32, key expansion** (src/aes_riscv32.rs `keygen_*`): RotWord is missing (everywhere except in the loop of `keygen_256`, whose last group lacks it too), so the schedule is not FIPS-197. C41_key_schedule_*.
2. **RISC-V-32, chains** (src/aes_riscv32.rs `pre_enc`/`pre_dec` with src/lib.rs:342-394): the "pre" form adds the key *after* the round operation, so `chain_enc`/`chain_dec`, and through them
   encryption and decryption, apply round keys in the wrong place. C41_chain_*.
3. **RISC-V-32, `dec`, `dec_last`, `mc`, `imc`** are not the FIPS operations. C41_dec, C41_mc...; decryption does not invert encryption (C41_decrypt_does_not_invert).
4. **Constant-time code on big-endian targets** (src/aes_bitslice.rs `RCON`, `ror8_32`): RotWord goes the wrong way and Rcon lands in the wrong byte. Encryption is not AES (C42), although
   decryption still inverts it (C05) and single rounds are right (C12, C13).
5. **cfg**: big-endian AArch64/Arm with `aes` selects a software `AesBlock` but the `pre_enc` version of the chains: it does not compile. C33_big_endian_arm_refuted.
6. `Debug` of encrypters and decrypters prints all round keys, hence the key (C43). `{:#}` prints upper-case hex without a prefix, `{:#X}` prints `0X` (C26, C28).
7. Derived `==` short-circuits on the multi-field block types, so its timing depends on data (C34_eq_leaks).
8. RV64 `keygen_192` transmutes a tuple: its result depends on a layout that Rust leaves to the compiler (C49).
9. CI never compiles `aes_riscv32`: its clippy jobs `RV64` and `RV32` lack `--features=nightly` and look at the table-based code (C55_clippy_riscv_refuted, C55_never_compiled); the two wrong
   implementations are exactly the ones no CI job runs (C55_tested_iff_aes).
10. A constant block can be a pattern in a `match` on the software and RISC-V targets, not on x86 with `aes` or on Arm, where `PartialEq` is written by hand: a CPU flag can make a client stop
   compiling (C71_flag_breaks_pattern).

Where a property is false on a target because of 1-5, the theorem excludes exactly that target (`t ≠ .riscv32`, `t ≠ .bitslice .big`) and the refutation
theorem shows that the exclusion is necessary.

## 5. Trusted base

* Lean 4.33.0's kernel, and the axioms listed in section 6 (at most `propext`, `Classical.choice`, `Quot.sound`). No axioms are added; no compiled evaluation is used in any proof.
* That the model says what the Rust source says. For everything a client can call, and for the conditional compilation, this rests on C60: on `tools/rust2lean.py` (a syntax-directed translator, which refuses what it does not know and whose output is committed and can be regenerated: `python3 tools/rust2lean.py` reproduces `Verif/Gen`), on the meaning of the fragment of Rust in `Verif/Rust.lean`, `Verif/Gen/Prelude.lean` (memory layout, `transmute`, slice casts) and `Model/Profile.lean` (`usize` arithmetic), on `Verif/Gen/Intrinsics.lean` (names of intrinsics to instruction models) and on the assembly `Verif/Gen/Crate.lean` (which method of the API is which function). The parts that C60 does not tie to the text: tests.rs (C51), the leakage semantics (C34; tied to the model by the erasure theorem), the memory-level models of C48-C50 (tied to the model by their theorems), ci.yml (C55). For all hand-written definitions the citations are there to check: For the traces of C34 the same holds by C61, with `Verif/Gen/LeakPrelude.lean`, `Verif/Gen/LeakIntrinsics.lean` and `Verif/Gen/LeakCrate.lean` in place of their counterparts.
  `tools/citations.py` checks that every cited range and name exists; `tools/intrinsics.py` compares the intrinsics named in a cited range with those the model uses; `tools/literals.py` compares, for each cited definition, the sequence of hexadecimal literals (tables, masks, S-box circuit, test vectors) in the cited text with the one in the model.
* The transcription of FIPS-197 in `Verif/Spec/Fips197.lean`; cross-checked by proofs that it yields the standard's vectors (`Properties/Vectors.lean`) and by the inverse laws.
* The meaning of the intrinsics in `Isa*.lean`, including that the `llvm.riscv.*` link names denote the instructions of that name. `Properties/IsaVectors.lean` checks the x86 ones against Intel's worked examples, and `Properties/IsaHardware.lean` checks every x86 intrinsic the crate uses, except the casts with an undefined upper half, against the results of a real processor (x86-64 with VAES and AVX-512F; `tools/isa/isa_x86.c` runs the intrinsics and writes the file; its full version of 354 checks was accepted too but takes eleven minutes). The Arm and RISC-V instructions could not be run here.
* The fragment of `core::fmt` in `Model/Fmt.lean` (`Formatter` flags, `write_str`, `DebugTuple`, `DebugList`, `DebugStruct`, `PadAdapter`, integer hex/binary formatting).
* `Cfg.Valid`: which `target_feature`s rustc implies by which, and that `target_endian` is little on x86, RISC-V and Arm64EC.
* For C34: the attacker sees the operations executed, branch outcomes and memory indices of the source program; every scalar and vector instruction other than a
  branch or an indexed load takes time independent of its operands. What rustc and LLVM do to the code, caches, speculation and power are not modelled.
* Memory layout of arrays, `repr(transparent)` newtypes and (RV64) tuples as used by casts and `transmute`.

## 6. Axioms

As printed by `#print axioms` (regenerate with `tools/axioms.py`):

<!-- axioms:begin -->
* **(none)** (5 theorems): `C55_stable_jobs`, `C55_clippy_riscv_refuted`, `C55_never_compiled`, `C55_wide_modules`, `C69_no_global_state`
* **propext** (6 theorems): `C33_big_endian_arm_refuted`, `C33_every_target`, `C60_selection`, `C69_copy`, `C69_layout`, `C71_same_api`
* **propext, Quot.sound** (29 theorems): `C11_dec_from`, `C16_panics_iff_empty`, `C20_try_from_short`, `C29_riscv32_refuted`, `C32_one_block`, `C34_eq_leaks`, `C34_table_exceptions`, `C39_sub_word`, `C40_encrypt_block`, `C40_decrypt_block`, `C41_chain_enc`, `C41_chain_dec`, `C41_key_schedule_256_prefix`, `C41_dec_refuted`, `C41_mc_refuted`, `C41_chain_refuted`, `C47_decomposed_refuted`, `C48_needs_alignment`, `C49_declaration_order`, `C51_unit_tests`, `C53_noninterference`, `C55_valid`, `C57_over_is_crate`, `C62_source_assign`, `C64_chain`, `C64_wide`, `C67_sc`, `C71_patterns`, `C71_flag_breaks_pattern`
* **propext, Classical.choice, Quot.sound** (373 theorems): `C01_aes128_encrypt`, `C02_aes192_encrypt`, `C03_aes256_encrypt`, `C04_aes128_decrypt`, `C04_aes192_decrypt`, `C04_aes256_decrypt`, `C05_decrypt_encrypt`, `C05_aes128`, `C05_aes192`, `C05_aes256`, `C06_encrypt_decrypt`, `C06_encrypter`, `C06_aes128`, `C06_aes192`, `C06_aes256`, `C07_encrypt_2_blocks`, `C07_encrypt_4_blocks`, `C07_every_x2_is_a_pair`, `C07_every_x4_is_a_quad`, `C07_aes128_x2`, `C07_aes128_x4`, `C07_aes192_x2`, `C07_aes192_x4`, `C07_aes256_x2`, `C07_aes256_x4`, `C08_decrypt_2_blocks`, `C08_decrypt_4_blocks`, `C08_aes128_x2`, `C08_aes128_x4`, `C08_aes192_x2`, `C08_aes192_x4`, `C08_aes256_x2`, `C08_aes256_x4`, `C09_aes128`, `C09_aes192`, `C09_aes256`, `C10_convert_twice`, `C10_history`, `C10_convert_ok`, `C11_back`, `C11_aes128_EIC`, `C11_aes192_EIC`, `C11_aes256_EIC`, `C12_enc`, `C12_enc_last`, `C13_dec`, `C13_dec_last`, `C14_mc`, `C14_imc`, `C14_inverse`, `C14_order`, `C15_undo_enc`, `C15_undo_enc_last`, `C15_undo_dec`, `C15_undo_dec_last`, `C16_chain_enc`, `C17_chain_dec`, `C18_new_from`, `C18_bytes_roundtrip`, `C18_value_roundtrip`, `C19_u128_roundtrip`, `C19_block_roundtrip`, `C19_big_endian`, `C20_try_from_long`, `C21_store_to_short`, `C21_store_to_long`, `C21_store_to_panics_iff`, `C22_and`, `C22_or`, `C22_xor`, `C22_not`, `C22_assign`, `C23_zero`, `C23_is_zero`, `C24_eq_bytes`, `C24_eq_iff`, `C24_equivalence`, `C25_pair`, `C25_quad`, `C25_x2_pair`, `C25_quad_pair`, `C25_broadcast`, `C25_layout_x2`, `C25_layout_x4`, `C26_lower_hex`, `C26_upper_hex`, `C26_bytes`, `C26_read_back`, `C26_injective`, `C26_failing_sink`, `C27_binary`, `C27_bytes`, `C27_read_back`, `C27_injective`, `C28_display_debug`, `C28_debug_x2`, `C28_debug_x4`, `C28_any_sink`, `C29_refines_aes`, `C29_portable`, `C29_big_endian`, `C29_riscv32`, `C29_every_target`, `C29_data_portable`, `C29_big_endian_refuted`, `C29_is_aes_iff`, `C30_and_x2`, `C30_or_x2`, `C30_xor_x2`, `C30_not_x2`, `C30_zero_x2`, `C30_eq_x2`, `C30_is_zero_x2`, `C30_rounds_x2`, `C30_chain_enc_x2`, `C30_chain_dec_x2`, `C30_bits_x4`, `C30_zero_x4`, `C30_eq_x4`, `C30_is_zero_x4`, `C30_rounds_x4`, `C30_chain_enc_x4`, `C30_chain_dec_x4`, `C30_rounds_quad`, `C31_encrypt_permutation`, `C31_decrypt_permutation`, `C31_encrypt_every_target`, `C31_decrypt_every_target`, `C31_wide`, `C32_key_setup`, `C32_conversions`, `C32_two_blocks`, `C32_four_blocks`, `C32_conversions_bytes`, `C33_readme`, `C33_unresolved_iff`, `C33_chain_pre`, `C33_features_enabled`, `C33_gates`, `C33_constant_time_only_software`, `C33_configuration_encrypts`, `C33_every_configuration`, `C33_is_aes_iff`, `C33_cargo_features_invisible`, `C34_every_configuration`, `C34_programs`, `C34_erasure`, `C34_constant_time`, `C34_blank`, `C34_encrypt`, `C34_decrypt`, `C34_table_leaks_key`, `C34_table_leaks_state`, `C35_TE0`, `C35_TE1`, `C35_TE2`, `C35_TE3`, `C35_TE4`, `C35_TD0`, `C35_TD1`, `C35_TD2`, `C35_TD3`, `C35_TD4`, `C36_mc_linear`, `C36_imc_linear`, `C36_zero`, `C37_dec_imc`, `C37_enc_mc`, `C37_enc_dec`, `C38_aes128_key`, `C38_aes192_key`, `C38_aes256_key`, `C38_enc_injective`, `C38_dec_injective`, `C39_subbytes`, `C39_invsubbytes`, `C39_xtime`, `C39_mixcolumns`, `C39_invmixcolumns`, `C39_shiftrows`, `C39_invshiftrows`, `C40_chain_enc_append`, `C40_chain_dec_append`, `C40_chain_enc_restart`, `C40_chain_dec_restart`, `C41_dec`, `C41_dec_last`, `C41_mc`, `C41_imc`, `C41_key_schedule_128`, `C41_key_schedule_192`, `C41_key_schedule_256`, `C41_encrypt_block`, `C41_decrypt_block`, `C41_aes128_encrypt`, `C41_aes192_encrypt`, `C41_aes256_encrypt`, `C41_aes128_decrypt`, `C41_aes192_decrypt`, `C41_aes256_decrypt`, `C41_key_schedule_refuted`, `C41_key_schedule_right_iff_128`, `C41_key_schedule_right_iff_192`, `C41_key_schedule_right_iff_256`, `C41_not_aes128`, `C41_not_aes192`, `C41_not_aes256`, `C41_decrypt_does_not_invert`, `C41_conversion_refuted`, `C42_key_schedule_128`, `C42_key_schedule_192`, `C42_key_schedule_256`, `C42_aes128_encrypt`, `C42_aes192_encrypt`, `C42_aes256_encrypt`, `C42_aes128_decrypt`, `C42_aes192_decrypt`, `C42_aes256_decrypt`, `C42_key_schedule_wrong_128`, `C42_key_schedule_wrong_192`, `C42_key_schedule_wrong_256`, `C42_key_schedule_refuted`, `C42_not_aes128`, `C42_not_aes192`, `C42_not_aes256`, `C42_not_portable`, `C43_debug_encrypter`, `C43_debug_decrypter`, `C43_debug_reveals_key`, `C43_debug_reveals_key192`, `C43_debug_reveals_key256`, `C44_fault_is_misuse`, `C44_history`, `C44_misuse_panics`, `C44_fault_keeps_state`, `C45_encrypt_any_cut`, `C45_decrypt_any_cut`, `C45_cuts_agree`, `C46_encrypt_message`, `C46_decrypt_message`, `C46_interop`, `C46_interop_self`, `C47_enc`, `C47_dec`, `C47_enc_last`, `C47_dec_last`, `C47_enc_decomposed`, `C48_bitslice`, `C48_arm`, `C48_riscv32`, `C48_exact_length`, `C49_layout_iff`, `C49_swapped_refuted`, `C50_panic_writes_nothing`, `C50_writes_exactly`, `C50_cut_short`, `C50_refines`, `C51_suite_iff_aes`, `C51_source_tests`, `C51_source_decides`, `C51_source_configurations`, `C51_suite_passes`, `C51_suite_fails_riscv32`, `C51_suite_fails_big_endian`, `C51_suite_decides`, `C52_aes128_unique`, `C52_aes192_unique`, `C52_aes256_unique`, `C52_recover`, `C52_not_less`, `C52_dec_unique`, `C53_fair`, `C53_encrypt`, `C53_decrypt`, `C53_encrypt_every_target`, `C53_decrypt_every_target`, `C53_message_in_place`, `C54_enc_one_byte`, `C54_enc_two_rounds`, `C54_dec_one_byte`, `C54_dec_two_rounds`, `C54_branch`, `C55_ci_green`, `C55_tested_iff_aes`, `C56_enc`, `C56_dec`, `C57_any_backend`, `C57_contract_iff`, `C57_riscv32_repaired`, `C57_big_endian_repaired`, `C58_profiles_agree`, `C58_profile_free`, `C58_is_aes`, `C58_fault_is_misuse`, `C58_misuse_panics`, `C59_enc`, `C59_dec`, `C59_one_round`, `C60_source_is_model`, `C60_is_aes`, `C60_every_configuration`, `C60_is_aes_iff`, `C60_fault_is_misuse`, `C61_leakage`, `C61_erasure`, `C61_constant_time`, `C61_table_leaks_key`, `C61_every_configuration`, `C62_store_to`, `C62_caller_pointers`, `C62_store_to_again`, `C62_into_bytes`, `C62_try_from`, `C62_history`, `C62_from_ref`, `C62_assign`, `C62_new`, `C62_bitslice`, `C62_arm`, `C62_riscv32`, `C62_source`, `C62_source_history`, `C62_source_from_array`, `C62_source_keygen`, `C63_portable`, `C63_runs_iff`, `C63_no_unknown_instruction`, `C63_wrong_cpu_crashes`, `C63_intrinsics_callable`, `C64_price`, `C64_program`, `C64_encrypt_program`, `C65_enc`, `C65_dec`, `C65_eight_rounds`, `C66_rounds`, `C66_chains`, `C66_equal_columns`, `C66_round_keys`, `C67_message_in_place`, `C67_round_trip`, `C67_shared_encrypter`, `C67_shared_decrypter`, `C67_any_memory`, `C67_encrypt`, `C67_decrypt`, `C67_encrypt_every_target`, `C67_decrypt_every_target`, `C68_enc_two_rounds`, `C68_dec_two_rounds`, `C68_enc_three_rounds`, `C68_dec_three_rounds`, `C68_enc_four_rounds`, `C68_dec_four_rounds`, `C68_dec_four_rounds_riscv32`, `C68_chain_enc`, `C68_chain_dec`, `C68_chain_dec_riscv32`, `C69_no_drop`, `C69_send_sync`, `C69_key_expansion_in_memory`, `C70_encrypter_is_key`, `C70_decrypter_is_key`, `C70_after_use`, `C70_after_use_dec`, `C72_cbc_encrypt`, `C72_cbc_decrypt`, `C72_cbc_interop`, `C72_cbc_self`, `C72_ctr`, `C72_ctr_interop`, `C72_ctr_self`, `C72_keystream_never_repeats`
<!-- axioms:end -->

## 7. Mutation testing

`seeded/LOG.jsonl` has one line per wrong program tried on a scratch copy of the model: the definition, the edit, the claim it breaks, the theorems that
failed to check and those that were tightened because of it. Entries whose definition begins with `src/` are edits of the Rust text: the translator was run on the edited
text and the proofs of C60 rebuilt.
