{
 "C01": {
  "note": "Hypotheses `t ≠ riscv32` and, for the key schedule, `t ≠` big-endian bit-slicing exclude the two targets on which the claim is false; C41 and C42 prove it false there."
 },
 "C02": {
  "note": "Hypotheses `t ≠ riscv32` and, for the key schedule, `t ≠` big-endian bit-slicing exclude the two targets on which the claim is false; C41 and C42 prove it false there."
 },
 "C03": {
  "note": "Hypotheses `t ≠ riscv32` and, for the key schedule, `t ≠` big-endian bit-slicing exclude the two targets on which the claim is false; C41 and C42 prove it false there."
 },
 "C04": {
  "note": "Hypotheses `t ≠ riscv32` and, for the key schedule, `t ≠` big-endian bit-slicing exclude the two targets on which the claim is false; C41 and C42 prove it false there."
 },
 "C05": {
  "note": "Hypothesis `t ≠ riscv32`: on RISC-V-32 the claim is false, and C41 proves that. Big-endian bit-slicing is included."
 },
 "C06": {
  "note": "Hypothesis `t ≠ riscv32`: on RISC-V-32 the claim is false, and C41 proves that. Big-endian bit-slicing is included."
 },
 "C07": {
  "note": "Block-wise equality on all targets; the end-to-end theorems from the key (C07_aesNNN_xM) exclude the two targets of C41/C42."
 },
 "C08": {
  "note": "Block-wise equality on all targets; the end-to-end theorems from the key (C08_aesNNN_xM) exclude the two targets of C41/C42."
 },
 "C09": {
  "note": "Hypotheses `t ≠ riscv32` and, for the key schedule, `t ≠` big-endian bit-slicing exclude the two targets on which the claim is false; C41 and C42 prove it false there."
 },
 "C10": {
  "note": "Hypothesis `t ≠ riscv32`: on RISC-V-32 the claim is false, and C41 proves that."
 },
 "C11": {
  "note": "Hypothesis `t ≠ riscv32`: on RISC-V-32 the claim is false, and C41 proves that."
 },
 "C12": {
  "note": "No hypothesis on the target: all modelled targets, RISC-V-32 and big-endian bit-slicing included."
 },
 "C13": {
  "note": "Hypothesis `t ≠ riscv32`: on RISC-V-32 the claim is false, and C41 proves that."
 },
 "C14": {
  "note": "Hypothesis `t ≠ riscv32`: on RISC-V-32 the claim is false, and C41 proves that."
 },
 "C15": {
  "note": "Hypothesis `t ≠ riscv32`: on RISC-V-32 the claim is false, and C41 proves that."
 },
 "C16": {
  "note": "Hypothesis `t ≠ riscv32`: on RISC-V-32 the claim is false, and C41 proves that. Slices of any length, by induction."
 },
 "C17": {
  "note": "Hypothesis `t ≠ riscv32`: on RISC-V-32 the claim is false, and C41 proves that. Slices of any length, by induction."
 },
 "C18": {
  "note": "No hypothesis on the target: all modelled targets, RISC-V-32 and big-endian bit-slicing included."
 },
 "C19": {
  "note": "No hypothesis on the target: all modelled targets, RISC-V-32 and big-endian bit-slicing included."
 },
 "C20": {
  "note": "No hypothesis on the target: all modelled targets, RISC-V-32 and big-endian bit-slicing included. Slices of any length."
 },
 "C21": {
  "note": "No hypothesis on the target: all modelled targets, RISC-V-32 and big-endian bit-slicing included. Value level; C50 does the same on a memory, byte by byte."
 },
 "C22": {
  "note": "No hypothesis on the target: all modelled targets, RISC-V-32 and big-endian bit-slicing included."
 },
 "C23": {
  "note": "No hypothesis on the target: all modelled targets, RISC-V-32 and big-endian bit-slicing included."
 },
 "C24": {
  "note": "No hypothesis on the target: all modelled targets, RISC-V-32 and big-endian bit-slicing included."
 },
 "C25": {
  "note": "No hypothesis on the target: all modelled targets, RISC-V-32 and big-endian bit-slicing included."
 },
 "C26": {
  "note": "No hypothesis on the target: all modelled targets, RISC-V-32 and big-endian bit-slicing included."
 },
 "C27": {
  "note": "No hypothesis on the target: all modelled targets, RISC-V-32 and big-endian bit-slicing included."
 },
 "C28": {
  "note": "No hypothesis on the target: all modelled targets, RISC-V-32 and big-endian bit-slicing included. Formatter flags are modelled; the character output of core::fmt is a model of the library, not of this repository."
 },
 "C29": {
  "note": "Induction over histories of adaptive clients; the two broken targets are characterised separately (they agree with the reference built from C41's and C42's functions)."
 },
 "C30": {
  "note": "No hypothesis on the target: all modelled targets, RISC-V-32 and big-endian bit-slicing included."
 },
 "C31": {
  "note": "No hypothesis on the target: all modelled targets, RISC-V-32 and big-endian bit-slicing included."
 },
 "C32": {
  "note": "No hypothesis on the target: all modelled targets, RISC-V-32 and big-endian bit-slicing included. `Rust.M` has a panic and an undefined-behaviour outcome; every raw access is checked in the model."
 },
 "C33": {
  "note": "All combinations of cfg flags, by cases on the conditions, not by sampling."
 },
 "C34": {
  "status": "proved",
  "note": "Source-level leakage model (Verif/Model/Leak.lean): operations, branches, memory indices. What the compiler makes of the source, and the data-independence of single instructions, are outside; formatting is excluded."
 },
 "C35": {
  "note": "All 256 indices of ten literal tables transcribed from the source: a finite domain, covered completely in the kernel."
 },
 "C36": {
  "note": "No hypothesis on the target: all modelled targets, RISC-V-32 and big-endian bit-slicing included."
 },
 "C37": {
  "note": "Hypothesis `t ≠ riscv32`: on RISC-V-32 the claim is false, and C41 proves that."
 },
 "C38": {
  "note": "No hypothesis on the target: all modelled targets, RISC-V-32 and big-endian bit-slicing included."
 },
 "C39": {
  "note": "Boolean identities on words of any lane contents; the S-box circuit is checked for all 256 byte values in every lane."
 },
 "C40": {
  "note": "Hypothesis `t ≠ riscv32`: on RISC-V-32 the claim is false, and C41 proves that."
 },
 "C41": {
  "note": "The negative results are proved with witnesses; what the target computes instead is proved for all inputs."
 },
 "C42": {
  "note": "The schedule is wrong for every key; what the target computes instead is proved for all inputs."
 },
 "C43": {
  "note": "No hypothesis on the target: all modelled targets, RISC-V-32 and big-endian bit-slicing included."
 },
 "C44": {
  "note": "No hypothesis on the target: all modelled targets, RISC-V-32 and big-endian bit-slicing included."
 },
 "C45": {
  "note": "No hypothesis on the target: all modelled targets, RISC-V-32 and big-endian bit-slicing included. Lists and cuttings of any length, by induction."
 },
 "C46": {
  "note": "Hypotheses `t ≠ riscv32` and, for the key schedule, `t ≠` big-endian bit-slicing exclude the two targets on which the claim is false; C41 and C42 prove it false there."
 },
 "C47": {
  "note": "All targets; only the relation with mc/imc excludes RISC-V-32, where it is false."
 },
 "C48": {
  "note": "Byte-addressed memory with bounds and alignment checks; all addresses."
 },
 "C49": {
  "note": "All word layouts; the compiler's choice is a parameter."
 },
 "C50": {
  "note": "No hypothesis on the target: all modelled targets, RISC-V-32 and big-endian bit-slicing included. Every prefix of the byte writes is a crash point."
 },
 "C51": {
  "note": "The test functions are transcribed by hand and translated from the text by tools/rust2lean.py, and the two are proved equal; the verdict is proved per target. Messages of failed assertions are not modelled."
 },
 "C52": {
  "note": "Both directions: uniqueness, and non-uniqueness witnesses for a single round key of the longer key sizes."
 },
 "C53": {
  "note": "Hypotheses `t ≠ riscv32` and, for the key schedule, `t ≠` big-endian bit-slicing exclude the two targets on which the claim is false; C41 and C42 prove it false there. Any number of threads and any schedule, by an invariant. `C53_fair`: under any fair endless schedule all threads finish at some moment, and the results stay."
 },
 "C54": {
  "note": "enc on all targets; dec, mc and imc on all but RISC-V-32."
 },
 "C55": {
  "note": "The workflow files are transcribed as data; rustc's implied features are part of the trusted base."
 },
 "C56": {
  "note": "No hypothesis on the target: all modelled targets, RISC-V-32 and big-endian bit-slicing included."
 },
 "C57": {
  "note": "The contract is proved sufficient for any backend and met by exactly the correct ones; the repairs are changed copies of the models of the two wrong modules."
 },
 "C58": {
  "note": "No hypothesis on the target: all modelled targets, RISC-V-32 and big-endian bit-slicing included."
 },
 "C59": {
  "note": "Counts of (block, block, keys) along any sequence of differences, for enc and dec on every target; a bound on characteristics, not on differentials (sums over all characteristics)."
 },
 "C60": {
  "note": "Relative to the translator tools/rust2lean.py, the meaning of the Rust fragment (Rust.lean, Gen/Prelude.lean, Gen/Intrinsics.lean) and the assembly Gen/Crate.lean."
 },
 "C61": {
  "note": "Relative to the translator tools/rust2lean.py (leak mode), the meaning of the fragment with events (Model/Leak.lean, Gen/LeakPrelude.lean, Gen/LeakIntrinsics.lean) and the assembly Gen/LeakCrate.lean. Formatting is excluded, as in C34."
 },
 "C62": {
  "note": "Relative to Spec/Borrows.lean (Stacked Borrows as Miri implements it, for plain bytes; no two-phase borrows, stricter about protectors) and to what Gen/BorrowPrelude.lean and Model/Borrow.lean say the library functions do with references. The functions themselves are also translated from the source text (Gen/Borrow.lean) and proved equal to the model. Every raw pointer expression of the crate is covered. Tree Borrows is not modelled."
 },
 "C63": {
  "note": "The instructions are the instr events of the translated source (C61); which CPU knows which instruction, and what core::arch declares for each intrinsic, is Spec/Cpu.lean (from the manuals). Loads, stores, constants and register moves are no events: they are covered by C63_intrinsics_callable, which ranges over all intrinsics that tools/rust2lean.py finds in the text. That rustc emits for an intrinsic the instruction of its name (or one that the enabled features allow) is trusted."
 },
 "C64": {
  "note": "Work is counted on the translated source (C61): operations on words, instructions, moves and look-ups in constant tables; loop control, bounds checks and accesses to blocks and round keys in memory are not counted, and the compiler may of course do less (e.g. drop the last, unused half of the AES-192 step on x86). It is a count, not a measurement of time. Prices are given for the computing calls and new; ==, is_zero, stores and formatting have none."
 },
 "C65": {
  "note": "Imbalance as a sum over all blocks (Spec/Linear.lean). Bound for one round and for trails, for enc and dec on every target; the sum over trails (correlation matrices) and the average over keys (linear hull) are equalities. The bound is on trails, not on hulls."
 },
 "C66": {
  "note": "Also for RISC-V-32 and big-endian bitslice, whose rounds and key schedules differ from FIPS-197. That three, four and five are needed is shown for AES-128 by an example (zero key)."
 },
 "C67": {
  "note": "`C67_any_memory` for arbitrary threads with disjoint footprints (data-race freedom gives sequential consistency, proved here for an over-approximation of every coherent memory); `C67_encrypt`/`C67_decrypt`/`_every_target` for the crate's threads, with race freedom; `C67_shared_*` put the encrypter itself into the shared memory; `C67_sc` shows that every schedule is one of the executions; the store-buffer litmus test shows that the memory is weaker than sequential consistency. `C67_message_in_place` and `C67_round_trip` say it for a whole message divided among threads in any way: AES of every block, nothing else touched, and back again with another division, other threads, another target."
 },
 "C68": {
  "note": "On every target, RISC-V-32 included; only its `dec` needs its own statement for four rounds (C41: it shifts the rows the other way)."
 },
 "C69": {
  "note": "About `Gen/Items.lean`, the list of all items that `tools/items.py` reads off the source text (it refuses generic impls, enums, unknown macros, ...). What drop code, auto traits and layouts are is `Spec/Types.lean`. `C69_key_expansion_in_memory` joins the layout with C48: what key expansion through raw memory assumes of alignment follows from the declarations."
 },
 "C70": {
  "note": "A negative result: a user should know it. `keyInEnc` and `keyInDec` are the explicit functions. The encrypter half holds on every target, broken ones included."
 },
 "C71": {
  "note": "`tools/items.py` lists for each backend file the trait headers, derives and public signatures; `C71_same_api` compares what the ladders (generated) select. `AsPattern` in `Spec/Types.lean` is Rust's rule for constants in patterns. Trait methods and associated types follow from the trait; bodies are the other properties' matter."
 },
 "C72": {
  "note": "The modes are transcribed in `Spec/Modes.lean`; the programs (clients, not code of the crate) are at the head of `Properties/Modes.lean` and call only the modelled API. The standard's examples F.2.1 and F.5.1 come out, evaluated in the kernel."
 }
}