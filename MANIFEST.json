{
 "claims": [
  {
   "property": "C01",
   "status": "proved",
   "theorems": [
    "Aes.C01_aes128_encrypt"
   ],
   "note": "Hypotheses `t \u2260 riscv32` and, for the key schedule, `t \u2260` big-endian bit-slicing exclude the two targets on which the claim is false; C41 and C42 prove it false there."
  },
  {
   "property": "C02",
   "status": "proved",
   "theorems": [
    "Aes.C02_aes192_encrypt"
   ],
   "note": "Hypotheses `t \u2260 riscv32` and, for the key schedule, `t \u2260` big-endian bit-slicing exclude the two targets on which the claim is false; C41 and C42 prove it false there."
  },
  {
   "property": "C03",
   "status": "proved",
   "theorems": [
    "Aes.C03_aes256_encrypt"
   ],
   "note": "Hypotheses `t \u2260 riscv32` and, for the key schedule, `t \u2260` big-endian bit-slicing exclude the two targets on which the claim is false; C41 and C42 prove it false there."
  },
  {
   "property": "C04",
   "status": "proved",
   "theorems": [
    "Aes.C04_aes128_decrypt",
    "Aes.C04_aes192_decrypt",
    "Aes.C04_aes256_decrypt"
   ],
   "note": "Hypotheses `t \u2260 riscv32` and, for the key schedule, `t \u2260` big-endian bit-slicing exclude the two targets on which the claim is false; C41 and C42 prove it false there."
  },
  {
   "property": "C05",
   "status": "proved",
   "theorems": [
    "Aes.C05_decrypt_encrypt",
    "Aes.C05_aes128",
    "Aes.C05_aes192",
    "Aes.C05_aes256"
   ],
   "note": "Hypothesis `t \u2260 riscv32`: on RISC-V-32 the claim is false, and C41 proves that. Big-endian bit-slicing is included."
  },
  {
   "property": "C06",
   "status": "proved",
   "theorems": [
    "Aes.C06_encrypt_decrypt",
    "Aes.C06_encrypter",
    "Aes.C06_aes128",
    "Aes.C06_aes192",
    "Aes.C06_aes256"
   ],
   "note": "Hypothesis `t \u2260 riscv32`: on RISC-V-32 the claim is false, and C41 proves that. Big-endian bit-slicing is included."
  },
  {
   "property": "C07",
   "status": "proved",
   "theorems": [
    "Aes.C07_encrypt_2_blocks",
    "Aes.C07_encrypt_4_blocks",
    "Aes.C07_every_x2_is_a_pair",
    "Aes.C07_every_x4_is_a_quad",
    "Aes.C07_aes128_x2",
    "Aes.C07_aes128_x4",
    "Aes.C07_aes192_x2",
    "Aes.C07_aes192_x4",
    "Aes.C07_aes256_x2",
    "Aes.C07_aes256_x4"
   ],
   "note": "Block-wise equality on all targets; the end-to-end theorems from the key (C07_aesNNN_xM) exclude the two targets of C41/C42."
  },
  {
   "property": "C08",
   "status": "proved",
   "theorems": [
    "Aes.C08_decrypt_2_blocks",
    "Aes.C08_decrypt_4_blocks",
    "Aes.C08_aes128_x2",
    "Aes.C08_aes128_x4",
    "Aes.C08_aes192_x2",
    "Aes.C08_aes192_x4",
    "Aes.C08_aes256_x2",
    "Aes.C08_aes256_x4"
   ],
   "note": "Block-wise equality on all targets; the end-to-end theorems from the key (C08_aesNNN_xM) exclude the two targets of C41/C42."
  },
  {
   "property": "C09",
   "status": "proved",
   "theorems": [
    "Aes.C09_aes128",
    "Aes.C09_aes192",
    "Aes.C09_aes256"
   ],
   "note": "Hypotheses `t \u2260 riscv32` and, for the key schedule, `t \u2260` big-endian bit-slicing exclude the two targets on which the claim is false; C41 and C42 prove it false there."
  },
  {
   "property": "C10",
   "status": "proved",
   "theorems": [
    "Aes.C10_convert_twice",
    "Aes.C10_history",
    "Aes.C10_convert_ok"
   ],
   "note": "Hypothesis `t \u2260 riscv32`: on RISC-V-32 the claim is false, and C41 proves that."
  },
  {
   "property": "C11",
   "status": "proved",
   "theorems": [
    "Aes.C11_dec_from",
    "Aes.C11_back",
    "Aes.C11_aes128_EIC",
    "Aes.C11_aes192_EIC",
    "Aes.C11_aes256_EIC"
   ],
   "note": "Hypothesis `t \u2260 riscv32`: on RISC-V-32 the claim is false, and C41 proves that."
  },
  {
   "property": "C12",
   "status": "proved",
   "theorems": [
    "Aes.C12_enc",
    "Aes.C12_enc_last"
   ],
   "note": "No hypothesis on the target: all modelled targets, RISC-V-32 and big-endian bit-slicing included."
  },
  {
   "property": "C13",
   "status": "proved",
   "theorems": [
    "Aes.C13_dec",
    "Aes.C13_dec_last"
   ],
   "note": "Hypothesis `t \u2260 riscv32`: on RISC-V-32 the claim is false, and C41 proves that."
  },
  {
   "property": "C14",
   "status": "proved",
   "theorems": [
    "Aes.C14_mc",
    "Aes.C14_imc",
    "Aes.C14_inverse",
    "Aes.C14_order"
   ],
   "note": "Hypothesis `t \u2260 riscv32`: on RISC-V-32 the claim is false, and C41 proves that."
  },
  {
   "property": "C15",
   "status": "proved",
   "theorems": [
    "Aes.C15_undo_enc",
    "Aes.C15_undo_enc_last",
    "Aes.C15_undo_dec",
    "Aes.C15_undo_dec_last"
   ],
   "note": "Hypothesis `t \u2260 riscv32`: on RISC-V-32 the claim is false, and C41 proves that."
  },
  {
   "property": "C16",
   "status": "proved",
   "theorems": [
    "Aes.C16_chain_enc",
    "Aes.C16_panics_iff_empty"
   ],
   "note": "Hypothesis `t \u2260 riscv32`: on RISC-V-32 the claim is false, and C41 proves that. Slices of any length, by induction."
  },
  {
   "property": "C17",
   "status": "proved",
   "theorems": [
    "Aes.C17_chain_dec"
   ],
   "note": "Hypothesis `t \u2260 riscv32`: on RISC-V-32 the claim is false, and C41 proves that. Slices of any length, by induction."
  },
  {
   "property": "C18",
   "status": "proved",
   "theorems": [
    "Aes.C18_new_from",
    "Aes.C18_bytes_roundtrip",
    "Aes.C18_value_roundtrip"
   ],
   "note": "No hypothesis on the target: all modelled targets, RISC-V-32 and big-endian bit-slicing included."
  },
  {
   "property": "C19",
   "status": "proved",
   "theorems": [
    "Aes.C19_u128_roundtrip",
    "Aes.C19_block_roundtrip",
    "Aes.C19_big_endian"
   ],
   "note": "No hypothesis on the target: all modelled targets, RISC-V-32 and big-endian bit-slicing included."
  },
  {
   "property": "C20",
   "status": "proved",
   "theorems": [
    "Aes.C20_try_from_short",
    "Aes.C20_try_from_long"
   ],
   "note": "No hypothesis on the target: all modelled targets, RISC-V-32 and big-endian bit-slicing included. Slices of any length."
  },
  {
   "property": "C21",
   "status": "proved",
   "theorems": [
    "Aes.C21_store_to_short",
    "Aes.C21_store_to_long",
    "Aes.C21_store_to_panics_iff"
   ],
   "note": "No hypothesis on the target: all modelled targets, RISC-V-32 and big-endian bit-slicing included. Value level; C50 does the same on a memory, byte by byte."
  },
  {
   "property": "C22",
   "status": "proved",
   "theorems": [
    "Aes.C22_and",
    "Aes.C22_or",
    "Aes.C22_xor",
    "Aes.C22_not",
    "Aes.C22_assign"
   ],
   "note": "No hypothesis on the target: all modelled targets, RISC-V-32 and big-endian bit-slicing included."
  },
  {
   "property": "C23",
   "status": "proved",
   "theorems": [
    "Aes.C23_zero",
    "Aes.C23_is_zero"
   ],
   "note": "No hypothesis on the target: all modelled targets, RISC-V-32 and big-endian bit-slicing included."
  },
  {
   "property": "C24",
   "status": "proved",
   "theorems": [
    "Aes.C24_eq_bytes",
    "Aes.C24_eq_iff",
    "Aes.C24_equivalence"
   ],
   "note": "No hypothesis on the target: all modelled targets, RISC-V-32 and big-endian bit-slicing included."
  },
  {
   "property": "C25",
   "status": "proved",
   "theorems": [
    "Aes.C25_pair",
    "Aes.C25_quad",
    "Aes.C25_x2_pair",
    "Aes.C25_quad_pair",
    "Aes.C25_broadcast",
    "Aes.C25_layout_x2",
    "Aes.C25_layout_x4"
   ],
   "note": "No hypothesis on the target: all modelled targets, RISC-V-32 and big-endian bit-slicing included."
  },
  {
   "property": "C26",
   "status": "proved",
   "theorems": [
    "Aes.C26_lower_hex",
    "Aes.C26_upper_hex",
    "Aes.C26_bytes",
    "Aes.C26_read_back",
    "Aes.C26_injective",
    "Aes.C26_failing_sink"
   ],
   "note": "No hypothesis on the target: all modelled targets, RISC-V-32 and big-endian bit-slicing included."
  },
  {
   "property": "C27",
   "status": "proved",
   "theorems": [
    "Aes.C27_binary",
    "Aes.C27_bytes",
    "Aes.C27_read_back",
    "Aes.C27_injective"
   ],
   "note": "No hypothesis on the target: all modelled targets, RISC-V-32 and big-endian bit-slicing included."
  },
  {
   "property": "C28",
   "status": "proved",
   "theorems": [
    "Aes.C28_display_debug",
    "Aes.C28_debug_x2",
    "Aes.C28_debug_x4",
    "Aes.C28_any_sink"
   ],
   "note": "No hypothesis on the target: all modelled targets, RISC-V-32 and big-endian bit-slicing included. Formatter flags are modelled; the character output of core::fmt is a model of the library, not of this repository."
  },
  {
   "property": "C29",
   "status": "proved",
   "theorems": [
    "Aes.C29_refines_aes",
    "Aes.C29_portable",
    "Aes.C29_big_endian",
    "Aes.C29_riscv32",
    "Aes.C29_every_target",
    "Aes.C29_data_portable",
    "Aes.C29_riscv32_refuted",
    "Aes.C29_big_endian_refuted",
    "Aes.C29_is_aes_iff"
   ],
   "note": "Induction over histories of adaptive clients; the two broken targets are characterised separately (they agree with the reference built from C41's and C42's functions)."
  },
  {
   "property": "C30",
   "status": "proved",
   "theorems": [
    "Aes.C30_and_x2",
    "Aes.C30_or_x2",
    "Aes.C30_xor_x2",
    "Aes.C30_not_x2",
    "Aes.C30_zero_x2",
    "Aes.C30_eq_x2",
    "Aes.C30_is_zero_x2",
    "Aes.C30_rounds_x2",
    "Aes.C30_chain_enc_x2",
    "Aes.C30_chain_dec_x2",
    "Aes.C30_bits_x4",
    "Aes.C30_zero_x4",
    "Aes.C30_eq_x4",
    "Aes.C30_is_zero_x4",
    "Aes.C30_rounds_x4",
    "Aes.C30_chain_enc_x4",
    "Aes.C30_chain_dec_x4",
    "Aes.C30_rounds_quad"
   ],
   "note": "No hypothesis on the target: all modelled targets, RISC-V-32 and big-endian bit-slicing included."
  },
  {
   "property": "C31",
   "status": "proved",
   "theorems": [
    "Aes.C31_encrypt_permutation",
    "Aes.C31_decrypt_permutation",
    "Aes.C31_encrypt_every_target",
    "Aes.C31_decrypt_every_target",
    "Aes.C31_wide"
   ],
   "note": "No hypothesis on the target: all modelled targets, RISC-V-32 and big-endian bit-slicing included."
  },
  {
   "property": "C32",
   "status": "proved",
   "theorems": [
    "Aes.C32_key_setup",
    "Aes.C32_conversions",
    "Aes.C32_one_block",
    "Aes.C32_two_blocks",
    "Aes.C32_four_blocks",
    "Aes.C32_conversions_bytes"
   ],
   "note": "No hypothesis on the target: all modelled targets, RISC-V-32 and big-endian bit-slicing included. `Rust.M` has a panic and an undefined-behaviour outcome; every raw access is checked in the model."
  },
  {
   "property": "C33",
   "status": "proved",
   "theorems": [
    "Aes.C33_readme",
    "Aes.C33_unresolved_iff",
    "Aes.C33_big_endian_arm_refuted",
    "Aes.C33_chain_pre",
    "Aes.C33_features_enabled",
    "Aes.C33_gates",
    "Aes.C33_constant_time_only_software",
    "Aes.C33_every_target",
    "Aes.C33_configuration_encrypts",
    "Aes.C33_every_configuration",
    "Aes.C33_is_aes_iff",
    "Aes.C33_cargo_features_invisible"
   ],
   "note": "All combinations of cfg flags, by cases on the conditions, not by sampling."
  },
  {
   "property": "C34",
   "status": "proved",
   "theorems": [
    "Aes.C34_every_configuration",
    "Aes.C34_programs",
    "Aes.C34_erasure",
    "Aes.C34_constant_time",
    "Aes.C34_blank",
    "Aes.C34_encrypt",
    "Aes.C34_decrypt",
    "Aes.C34_table_leaks_key",
    "Aes.C34_table_leaks_state",
    "Aes.C34_eq_leaks",
    "Aes.C34_table_exceptions"
   ],
   "note": "Source-level leakage model (Verif/Model/Leak.lean): operations, branches, memory indices. What the compiler makes of the source, and the data-independence of single instructions, are outside; formatting is excluded."
  },
  {
   "property": "C35",
   "status": "proved",
   "theorems": [
    "Aes.C35_TE0",
    "Aes.C35_TE1",
    "Aes.C35_TE2",
    "Aes.C35_TE3",
    "Aes.C35_TE4",
    "Aes.C35_TD0",
    "Aes.C35_TD1",
    "Aes.C35_TD2",
    "Aes.C35_TD3",
    "Aes.C35_TD4"
   ],
   "note": "All 256 indices of ten literal tables transcribed from the source: a finite domain, covered completely in the kernel."
  },
  {
   "property": "C36",
   "status": "proved",
   "theorems": [
    "Aes.C36_mc_linear",
    "Aes.C36_imc_linear",
    "Aes.C36_zero"
   ],
   "note": "No hypothesis on the target: all modelled targets, RISC-V-32 and big-endian bit-slicing included."
  },
  {
   "property": "C37",
   "status": "proved",
   "theorems": [
    "Aes.C37_dec_imc",
    "Aes.C37_enc_mc",
    "Aes.C37_enc_dec"
   ],
   "note": "Hypothesis `t \u2260 riscv32`: on RISC-V-32 the claim is false, and C41 proves that."
  },
  {
   "property": "C38",
   "status": "proved",
   "theorems": [
    "Aes.C38_aes128_key",
    "Aes.C38_aes192_key",
    "Aes.C38_aes256_key",
    "Aes.C38_enc_injective",
    "Aes.C38_dec_injective"
   ],
   "note": "No hypothesis on the target: all modelled targets, RISC-V-32 and big-endian bit-slicing included."
  },
  {
   "property": "C39",
   "status": "proved",
   "theorems": [
    "Aes.C39_subbytes",
    "Aes.C39_invsubbytes",
    "Aes.C39_xtime",
    "Aes.C39_mixcolumns",
    "Aes.C39_invmixcolumns",
    "Aes.C39_shiftrows",
    "Aes.C39_invshiftrows",
    "Aes.C39_sub_word"
   ],
   "note": "Boolean identities on words of any lane contents; the S-box circuit is checked for all 256 byte values in every lane."
  },
  {
   "property": "C40",
   "status": "proved",
   "theorems": [
    "Aes.C40_chain_enc_append",
    "Aes.C40_chain_dec_append",
    "Aes.C40_chain_enc_restart",
    "Aes.C40_chain_dec_restart",
    "Aes.C40_encrypt_block",
    "Aes.C40_decrypt_block"
   ],
   "note": "Hypothesis `t \u2260 riscv32`: on RISC-V-32 the claim is false, and C41 proves that."
  },
  {
   "property": "C41",
   "status": "proved",
   "theorems": [
    "Aes.C41_dec",
    "Aes.C41_dec_last",
    "Aes.C41_mc",
    "Aes.C41_imc",
    "Aes.C41_chain_enc",
    "Aes.C41_chain_dec",
    "Aes.C41_key_schedule_128",
    "Aes.C41_key_schedule_192",
    "Aes.C41_key_schedule_256",
    "Aes.C41_key_schedule_256_prefix",
    "Aes.C41_encrypt_block",
    "Aes.C41_decrypt_block",
    "Aes.C41_aes128_encrypt",
    "Aes.C41_aes192_encrypt",
    "Aes.C41_aes256_encrypt",
    "Aes.C41_aes128_decrypt",
    "Aes.C41_aes192_decrypt",
    "Aes.C41_aes256_decrypt",
    "Aes.C41_dec_refuted",
    "Aes.C41_mc_refuted",
    "Aes.C41_chain_refuted",
    "Aes.C41_key_schedule_refuted",
    "Aes.C41_key_schedule_right_iff_128",
    "Aes.C41_key_schedule_right_iff_192",
    "Aes.C41_key_schedule_right_iff_256",
    "Aes.C41_not_aes128",
    "Aes.C41_not_aes192",
    "Aes.C41_not_aes256",
    "Aes.C41_decrypt_does_not_invert",
    "Aes.C41_conversion_refuted"
   ],
   "note": "The negative results are proved with witnesses; what the target computes instead is proved for all inputs."
  },
  {
   "property": "C42",
   "status": "proved",
   "theorems": [
    "Aes.C42_key_schedule_128",
    "Aes.C42_key_schedule_192",
    "Aes.C42_key_schedule_256",
    "Aes.C42_aes128_encrypt",
    "Aes.C42_aes192_encrypt",
    "Aes.C42_aes256_encrypt",
    "Aes.C42_aes128_decrypt",
    "Aes.C42_aes192_decrypt",
    "Aes.C42_aes256_decrypt",
    "Aes.C42_key_schedule_wrong_128",
    "Aes.C42_key_schedule_wrong_192",
    "Aes.C42_key_schedule_wrong_256",
    "Aes.C42_key_schedule_refuted",
    "Aes.C42_not_aes128",
    "Aes.C42_not_aes192",
    "Aes.C42_not_aes256",
    "Aes.C42_not_portable"
   ],
   "note": "The schedule is wrong for every key; what the target computes instead is proved for all inputs."
  },
  {
   "property": "C43",
   "status": "proved",
   "theorems": [
    "Aes.C43_debug_encrypter",
    "Aes.C43_debug_decrypter",
    "Aes.C43_debug_reveals_key",
    "Aes.C43_debug_reveals_key192",
    "Aes.C43_debug_reveals_key256"
   ],
   "note": "No hypothesis on the target: all modelled targets, RISC-V-32 and big-endian bit-slicing included."
  },
  {
   "property": "C44",
   "status": "proved",
   "theorems": [
    "Aes.C44_fault_is_misuse",
    "Aes.C44_history",
    "Aes.C44_misuse_panics",
    "Aes.C44_fault_keeps_state"
   ],
   "note": "No hypothesis on the target: all modelled targets, RISC-V-32 and big-endian bit-slicing included."
  },
  {
   "property": "C45",
   "status": "proved",
   "theorems": [
    "Aes.C45_encrypt_any_cut",
    "Aes.C45_decrypt_any_cut",
    "Aes.C45_cuts_agree"
   ],
   "note": "No hypothesis on the target: all modelled targets, RISC-V-32 and big-endian bit-slicing included. Lists and cuttings of any length, by induction."
  },
  {
   "property": "C46",
   "status": "proved",
   "theorems": [
    "Aes.C46_encrypt_message",
    "Aes.C46_decrypt_message",
    "Aes.C46_interop",
    "Aes.C46_interop_self"
   ],
   "note": "Hypotheses `t \u2260 riscv32` and, for the key schedule, `t \u2260` big-endian bit-slicing exclude the two targets on which the claim is false; C41 and C42 prove it false there."
  },
  {
   "property": "C47",
   "status": "proved",
   "theorems": [
    "Aes.C47_enc",
    "Aes.C47_dec",
    "Aes.C47_enc_last",
    "Aes.C47_dec_last",
    "Aes.C47_enc_decomposed",
    "Aes.C47_decomposed_refuted"
   ],
   "note": "All targets; only the relation with mc/imc excludes RISC-V-32, where it is false."
  },
  {
   "property": "C48",
   "status": "proved",
   "theorems": [
    "Aes.C48_bitslice",
    "Aes.C48_arm",
    "Aes.C48_riscv32",
    "Aes.C48_needs_alignment",
    "Aes.C48_exact_length"
   ],
   "note": "Byte-addressed memory with bounds and alignment checks; all addresses."
  },
  {
   "property": "C49",
   "status": "proved",
   "theorems": [
    "Aes.C49_declaration_order",
    "Aes.C49_layout_iff",
    "Aes.C49_swapped_refuted"
   ],
   "note": "All word layouts; the compiler's choice is a parameter."
  },
  {
   "property": "C50",
   "status": "proved",
   "theorems": [
    "Aes.C50_panic_writes_nothing",
    "Aes.C50_writes_exactly",
    "Aes.C50_cut_short",
    "Aes.C50_refines"
   ],
   "note": "No hypothesis on the target: all modelled targets, RISC-V-32 and big-endian bit-slicing included. Every prefix of the byte writes is a crash point."
  },
  {
   "property": "C51",
   "status": "proved",
   "theorems": [
    "Aes.C51_suite_iff_aes",
    "Aes.C51_source_tests",
    "Aes.C51_source_decides",
    "Aes.C51_source_configurations",
    "Aes.C51_unit_tests",
    "Aes.C51_suite_passes",
    "Aes.C51_suite_fails_riscv32",
    "Aes.C51_suite_fails_big_endian",
    "Aes.C51_suite_decides"
   ],
   "note": "The test functions are transcribed by hand and translated from the text by tools/rust2lean.py, and the two are proved equal; the verdict is proved per target. Messages of failed assertions are not modelled."
  },
  {
   "property": "C52",
   "status": "proved",
   "theorems": [
    "Aes.C52_aes128_unique",
    "Aes.C52_aes192_unique",
    "Aes.C52_aes256_unique",
    "Aes.C52_recover",
    "Aes.C52_not_less",
    "Aes.C52_dec_unique"
   ],
   "note": "Both directions: uniqueness, and non-uniqueness witnesses for a single round key of the longer key sizes."
  },
  {
   "property": "C53",
   "status": "proved",
   "theorems": [
    "Aes.C53_fair",
    "Aes.C53_noninterference",
    "Aes.C53_encrypt",
    "Aes.C53_decrypt",
    "Aes.C53_encrypt_every_target",
    "Aes.C53_decrypt_every_target",
    "Aes.C53_message_in_place"
   ],
   "note": "Hypotheses `t \u2260 riscv32` and, for the key schedule, `t \u2260` big-endian bit-slicing exclude the two targets on which the claim is false; C41 and C42 prove it false there. Any number of threads and any schedule, by an invariant. `C53_fair`: under any fair endless schedule all threads finish at some moment, and the results stay."
  },
  {
   "property": "C54",
   "status": "proved",
   "theorems": [
    "Aes.C54_enc_one_byte",
    "Aes.C54_enc_two_rounds",
    "Aes.C54_dec_one_byte",
    "Aes.C54_dec_two_rounds",
    "Aes.C54_branch"
   ],
   "note": "enc on all targets; dec, mc and imc on all but RISC-V-32."
  },
  {
   "property": "C55",
   "status": "proved",
   "theorems": [
    "Aes.C55_valid",
    "Aes.C55_ci_green",
    "Aes.C55_tested_iff_aes",
    "Aes.C55_stable_jobs",
    "Aes.C55_clippy_riscv_refuted",
    "Aes.C55_never_compiled",
    "Aes.C55_wide_modules"
   ],
   "note": "The workflow files are transcribed as data; rustc's implied features are part of the trusted base."
  },
  {
   "property": "C56",
   "status": "proved",
   "theorems": [
    "Aes.C56_enc",
    "Aes.C56_dec"
   ],
   "note": "No hypothesis on the target: all modelled targets, RISC-V-32 and big-endian bit-slicing included."
  },
  {
   "property": "C57",
   "status": "proved",
   "theorems": [
    "Aes.C57_any_backend",
    "Aes.C57_contract_iff",
    "Aes.C57_over_is_crate",
    "Aes.C57_riscv32_repaired",
    "Aes.C57_big_endian_repaired"
   ],
   "note": "The contract is proved sufficient for any backend and met by exactly the correct ones; the repairs are changed copies of the models of the two wrong modules."
  },
  {
   "property": "C58",
   "status": "proved",
   "theorems": [
    "Aes.C58_profiles_agree",
    "Aes.C58_profile_free",
    "Aes.C58_is_aes",
    "Aes.C58_fault_is_misuse",
    "Aes.C58_misuse_panics"
   ],
   "note": "No hypothesis on the target: all modelled targets, RISC-V-32 and big-endian bit-slicing included."
  },
  {
   "property": "C59",
   "status": "proved",
   "theorems": [
    "Aes.C59_enc",
    "Aes.C59_dec",
    "Aes.C59_one_round"
   ],
   "note": "Counts of (block, block, keys) along any sequence of differences, for enc and dec on every target; a bound on characteristics, not on differentials (sums over all characteristics)."
  },
  {
   "property": "C60",
   "status": "proved",
   "theorems": [
    "Aes.C60_source_is_model",
    "Aes.C60_selection",
    "Aes.C60_is_aes",
    "Aes.C60_every_configuration",
    "Aes.C60_is_aes_iff",
    "Aes.C60_fault_is_misuse"
   ],
   "note": "Relative to the translator tools/rust2lean.py, the meaning of the Rust fragment (Rust.lean, Gen/Prelude.lean, Gen/Intrinsics.lean) and the assembly Gen/Crate.lean."
  },
  {
   "property": "C61",
   "status": "proved",
   "theorems": [
    "Aes.C61_leakage",
    "Aes.C61_erasure",
    "Aes.C61_constant_time",
    "Aes.C61_table_leaks_key",
    "Aes.C61_every_configuration"
   ],
   "note": "Relative to the translator tools/rust2lean.py (leak mode), the meaning of the fragment with events (Model/Leak.lean, Gen/LeakPrelude.lean, Gen/LeakIntrinsics.lean) and the assembly Gen/LeakCrate.lean. Formatting is excluded, as in C34."
  },
  {
   "property": "C62",
   "status": "proved",
   "theorems": [
    "Aes.C62_store_to",
    "Aes.C62_caller_pointers",
    "Aes.C62_store_to_again",
    "Aes.C62_into_bytes",
    "Aes.C62_try_from",
    "Aes.C62_history",
    "Aes.C62_from_ref",
    "Aes.C62_assign",
    "Aes.C62_new",
    "Aes.C62_bitslice",
    "Aes.C62_arm",
    "Aes.C62_riscv32",
    "Aes.C62_source",
    "Aes.C62_source_history",
    "Aes.C62_source_from_array",
    "Aes.C62_source_keygen",
    "Aes.C62_source_assign"
   ],
   "note": "Relative to Spec/Borrows.lean (Stacked Borrows as Miri implements it, for plain bytes; no two-phase borrows, stricter about protectors) and to what Gen/BorrowPrelude.lean and Model/Borrow.lean say the library functions do with references. The functions themselves are also translated from the source text (Gen/Borrow.lean) and proved equal to the model. Every raw pointer expression of the crate is covered. Tree Borrows is not modelled."
  },
  {
   "property": "C63",
   "status": "proved",
   "theorems": [
    "Aes.C63_portable",
    "Aes.C63_runs_iff",
    "Aes.C63_no_unknown_instruction",
    "Aes.C63_wrong_cpu_crashes",
    "Aes.C63_intrinsics_callable"
   ],
   "note": "The instructions are the instr events of the translated source (C61); which CPU knows which instruction, and what core::arch declares for each intrinsic, is Spec/Cpu.lean (from the manuals). Loads, stores, constants and register moves are no events: they are covered by C63_intrinsics_callable, which ranges over all intrinsics that tools/rust2lean.py finds in the text. That rustc emits for an intrinsic the instruction of its name (or one that the enabled features allow) is trusted."
  },
  {
   "property": "C64",
   "status": "proved",
   "theorems": [
    "Aes.C64_price",
    "Aes.C64_program",
    "Aes.C64_chain",
    "Aes.C64_wide",
    "Aes.C64_encrypt_program"
   ],
   "note": "Work is counted on the translated source (C61): operations on words, instructions, moves and look-ups in constant tables; loop control, bounds checks and accesses to blocks and round keys in memory are not counted, and the compiler may of course do less (e.g. drop the last, unused half of the AES-192 step on x86). It is a count, not a measurement of time. Prices are given for the computing calls and new; ==, is_zero, stores and formatting have none."
  },
  {
   "property": "C65",
   "status": "proved",
   "theorems": [
    "Aes.C65_enc",
    "Aes.C65_dec",
    "Aes.C65_eight_rounds"
   ],
   "note": "Imbalance as a sum over all blocks (Spec/Linear.lean). Bound for one round and for trails, for enc and dec on every target; the sum over trails (correlation matrices) and the average over keys (linear hull) are equalities. The bound is on trails, not on hulls."
  },
  {
   "property": "C66",
   "status": "proved",
   "theorems": [
    "Aes.C66_rounds",
    "Aes.C66_chains",
    "Aes.C66_equal_columns",
    "Aes.C66_round_keys"
   ],
   "note": "Also for RISC-V-32 and big-endian bitslice, whose rounds and key schedules differ from FIPS-197. That three, four and five are needed is shown for AES-128 by an example (zero key)."
  },
  {
   "property": "C67",
   "status": "proved",
   "theorems": [
    "Aes.C67_message_in_place",
    "Aes.C67_round_trip",
    "Aes.C67_shared_encrypter",
    "Aes.C67_shared_decrypter",
    "Aes.C67_any_memory",
    "Aes.C67_sc",
    "Aes.C67_encrypt",
    "Aes.C67_decrypt",
    "Aes.C67_encrypt_every_target",
    "Aes.C67_decrypt_every_target"
   ],
   "note": "`C67_any_memory` for arbitrary threads with disjoint footprints (data-race freedom gives sequential consistency, proved here for an over-approximation of every coherent memory); `C67_encrypt`/`C67_decrypt`/`_every_target` for the crate's threads, with race freedom; `C67_shared_*` put the encrypter itself into the shared memory; `C67_sc` shows that every schedule is one of the executions; the store-buffer litmus test shows that the memory is weaker than sequential consistency. `C67_message_in_place` and `C67_round_trip` say it for a whole message divided among threads in any way: AES of every block, nothing else touched, and back again with another division, other threads, another target."
  },
  {
   "property": "C68",
   "status": "proved",
   "theorems": [
    "Aes.C68_enc_two_rounds",
    "Aes.C68_dec_two_rounds",
    "Aes.C68_enc_three_rounds",
    "Aes.C68_dec_three_rounds",
    "Aes.C68_enc_four_rounds",
    "Aes.C68_dec_four_rounds",
    "Aes.C68_dec_four_rounds_riscv32",
    "Aes.C68_chain_enc",
    "Aes.C68_chain_dec",
    "Aes.C68_chain_dec_riscv32"
   ],
   "note": "On every target, RISC-V-32 included; only its `dec` needs its own statement for four rounds (C41: it shifts the rows the other way)."
  },
  {
   "property": "C69",
   "status": "proved",
   "theorems": [
    "Aes.C69_no_drop",
    "Aes.C69_send_sync",
    "Aes.C69_copy",
    "Aes.C69_no_global_state",
    "Aes.C69_layout",
    "Aes.C69_key_expansion_in_memory"
   ],
   "note": "About `Gen/Items.lean`, the list of all items that `tools/items.py` reads off the source text (it refuses generic impls, enums, unknown macros, ...). What drop code, auto traits and layouts are is `Spec/Types.lean`. `C69_key_expansion_in_memory` joins the layout with C48: what key expansion through raw memory assumes of alignment follows from the declarations."
  },
  {
   "property": "C70",
   "status": "proved",
   "theorems": [
    "Aes.C70_encrypter_is_key",
    "Aes.C70_decrypter_is_key",
    "Aes.C70_after_use",
    "Aes.C70_after_use_dec"
   ],
   "note": "A negative result: a user should know it. `keyInEnc` and `keyInDec` are the explicit functions. The encrypter half holds on every target, broken ones included."
  },
  {
   "property": "C71",
   "status": "proved",
   "theorems": [
    "Aes.C71_same_api",
    "Aes.C71_patterns",
    "Aes.C71_flag_breaks_pattern"
   ],
   "note": "`tools/items.py` lists for each backend file the trait headers, derives and public signatures; `C71_same_api` compares what the ladders (generated) select. `AsPattern` in `Spec/Types.lean` is Rust's rule for constants in patterns. Trait methods and associated types follow from the trait; bodies are the other properties' matter."
  },
  {
   "property": "C72",
   "status": "proved",
   "theorems": [
    "Aes.C72_cbc_encrypt",
    "Aes.C72_cbc_decrypt",
    "Aes.C72_cbc_interop",
    "Aes.C72_cbc_self",
    "Aes.C72_ctr",
    "Aes.C72_ctr_interop",
    "Aes.C72_ctr_self",
    "Aes.C72_keystream_never_repeats"
   ],
   "note": "The modes are transcribed in `Spec/Modes.lean`; the programs (clients, not code of the crate) are at the head of `Properties/Modes.lean` and call only the modelled API. The standard's examples F.2.1 and F.5.1 come out, evaluated in the kernel."
  }
 ]
}