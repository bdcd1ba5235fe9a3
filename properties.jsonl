{"id": "C01", "title": "AES-128 encryption is FIPS-197 Cipher", "statement": "For every 16-byte key and 16-byte plaintext, Aes128Enc::from(key).encrypt_block(AesBlock::from(pt)), read back as bytes, equals the FIPS-197 Cipher() with Nr=10 under KeyExpansion(key); it never panics.", "quantifier": "every target configuration of the crate whose selected code is not refuted (see C33/C41/C42), every key of the stated length, every 16-byte block", "why_tests_cant": "2^128 keys times 2^128 plaintexts, times every backend; the repo's tests check five vectors under one key on whichever backend the test machine selects.", "anchors": ["src/lib.rs:Aes128Enc", "src/lib.rs:AesEncrypt::encrypt_block", "src/aes_table_based.rs:enc,enc_last,keygen_128", "src/aes_bitslice.rs:enc,enc_last,keygen_128", "src/aes_x86.rs", "src/aes_arm.rs", "src/aes_riscv64.rs"]}
{"id": "C02", "title": "AES-192 encryption is FIPS-197 Cipher", "statement": "Same as C01 for 24-byte keys and Nr=12 through Aes192Enc.", "quantifier": "every target configuration of the crate whose selected code is not refuted (see C33/C41/C42), every key of the stated length, every 16-byte block", "why_tests_cant": "The key space is 2^192; tests check four vectors under one key.", "anchors": ["src/lib.rs:Aes192Enc", "keygen_192 in every backend"]}
{"id": "C03", "title": "AES-256 encryption is FIPS-197 Cipher", "statement": "Same as C01 for 32-byte keys and Nr=14 through Aes256Enc.", "quantifier": "every target configuration of the crate whose selected code is not refuted (see C33/C41/C42), every key of the stated length, every 16-byte block", "why_tests_cant": "The key space is 2^256; tests check four vectors under one key.", "anchors": ["src/lib.rs:Aes256Enc", "keygen_256 in every backend"]}
{"id": "C04", "title": "Decryption is FIPS-197 InvCipher", "statement": "For each key size, AesNDec::from(key).decrypt_block equals FIPS-197 InvCipher() (the plain inverse cipher of section 5.3, although the code runs the equivalent inverse cipher of 5.3.5) under KeyExpansion(key).", "quantifier": "every target configuration of the crate whose selected code is not refuted (see C33/C41/C42), every key of the stated length, every 16-byte block", "why_tests_cant": "All keys and ciphertexts; and the code uses a different algorithm (equivalent inverse cipher) than the standard's definition.", "anchors": ["src/lib.rs:AesDecrypt::decrypt_block", "src/lib.rs:dec_round_keys"]}
{"id": "C05", "title": "decrypt inverts encrypt", "statement": "For each key size, every encrypter e obtained from a key and every block p: e.decrypter().decrypt_block(e.encrypt_block(p)) == p, and the same with AesNDec::from(key).", "quantifier": "every configuration except RISC-V-32 with zkne/zknd (C41), all keys, all blocks; also every array of round keys, not only expanded ones", "why_tests_cant": "Quantifies over all keys and blocks.", "anchors": ["src/lib.rs:AesEncrypt", "src/lib.rs:AesDecrypt", "src/lib.rs:dec_round_keys"]}
{"id": "C06", "title": "encrypt inverts decrypt", "statement": "For each key size, encrypt_block(decrypt_block(c)) == c for every block c, so every 16-byte value is a valid ciphertext.", "quantifier": "every configuration except RISC-V-32 with zkne/zknd, all keys, all blocks", "why_tests_cant": "Quantifies over all keys and blocks; no test does this direction.", "anchors": ["src/lib.rs:AesEncrypt", "src/lib.rs:AesDecrypt"]}
{"id": "C07", "title": "Multi-block encryption is block-wise encryption", "statement": "encrypt_2_blocks on (a,b) returns exactly (encrypt_block(a), encrypt_block(b)), and encrypt_4_blocks on (a,b,c,d) returns the four single-block encryptions in order; lanes do not influence each other.", "quantifier": "every configuration (including AVX2/AVX-512 VAES vector types), every encrypter, all blocks", "why_tests_cant": "All block tuples; a lane-crossing error may need specific values in a neighbouring lane.", "anchors": ["src/lib.rs:encrypt_2_blocks,encrypt_4_blocks", "src/aesdefault_x2.rs", "src/aesdefault_x4.rs", "src/aesni_x2.rs", "src/aesni_x4.rs"]}
{"id": "C08", "title": "Multi-block decryption is block-wise decryption", "statement": "decrypt_2_blocks and decrypt_4_blocks return exactly the single-block decryptions in order.", "quantifier": "every configuration, every decrypter, all blocks", "why_tests_cant": "As C07.", "anchors": ["src/lib.rs:decrypt_2_blocks,decrypt_4_blocks"]}
{"id": "C09", "title": "Key schedule is FIPS-197 KeyExpansion", "statement": "For each key size, round key r (0..=Nr) held by AesNEnc::from(key) is, as bytes, words w[4r..4r+3] of FIPS-197 KeyExpansion.", "quantifier": "every target configuration of the crate whose selected code is not refuted (see C33/C41/C42), every key of the stated length, every 16-byte block", "why_tests_cant": "All keys; tests check one key per size.", "anchors": ["keygen_128,keygen_192,keygen_256 in src/aes_table_based.rs, src/aes_bitslice.rs, src/aes_x86.rs, src/aes_arm.rs, src/aes_riscv64.rs"]}
{"id": "C10", "title": "decrypter()/encrypter() are mutually inverse over any history", "statement": "Starting from any encrypter and applying any alternating sequence of decrypter()/encrypter() conversions of any length, the encrypter (resp. decrypter) obtained has exactly the original round keys (resp. the original decrypter's), hence identical behaviour.", "quantifier": "every configuration except RISC-V-32 with zkne/zknd (refuted there, C41), arbitrary round keys, conversion histories of arbitrary length", "why_tests_cant": "Unbounded histories and arbitrary round keys.", "anchors": ["src/lib.rs:dec_round_keys", "src/lib.rs:enc_round_keys", "src/lib.rs:decrypter,encrypter"]}
{"id": "C11", "title": "A decrypter built from a key equals the one derived from the encrypter", "statement": "AesNDec::from(key) and AesNEnc::from(key).decrypter() hold the same round keys and behave identically; AesNDec::from(key).encrypter() equals AesNEnc::from(key).", "quantifier": "every configuration except RISC-V-32 with zkne/zknd (refuted there, C41), all keys of the three sizes", "why_tests_cant": "All keys.", "anchors": ["src/lib.rs:implement_aes"]}
{"id": "C12", "title": "enc / enc_last are the FIPS-197 encryption rounds", "statement": "x.enc(k) is AddRoundKey(MixColumns(ShiftRows(SubBytes(x))),k) and x.enc_last(k) is AddRoundKey(ShiftRows(SubBytes(x)),k) for every state and round key.", "quantifier": "every configuration (including RISC-V-32 and big-endian constant-time), all states and round keys", "why_tests_cant": "2^256 inputs; one test vector.", "anchors": ["AesBlock::enc, AesBlock::enc_last in every backend"]}
{"id": "C13", "title": "dec / dec_last are the FIPS-197 decryption rounds", "statement": "x.dec(k) is AddRoundKey(InvMixColumns(InvSubBytes(InvShiftRows(x))),k) and x.dec_last(k) is the same without InvMixColumns.", "quantifier": "every configuration except RISC-V-32 with zkne/zknd (refuted there, C41), all states and round keys", "why_tests_cant": "2^256 inputs.", "anchors": ["AesBlock::dec, AesBlock::dec_last in every backend"]}
{"id": "C14", "title": "mc / imc are MixColumns / InvMixColumns and mutually inverse", "statement": "x.mc() is FIPS-197 MixColumns, x.imc() is InvMixColumns, and x.mc().imc() == x == x.imc().mc(); four times mc is the identity, so imc is three times mc.", "quantifier": "every configuration except RISC-V-32 with zkne/zknd (refuted there, C41), all states", "why_tests_cant": "2^128 states; mc/imc have no direct test.", "anchors": ["AesBlock::mc, AesBlock::imc in every backend"]}
{"id": "C15", "title": "Single rounds can be undone with the public API", "statement": "(x.enc(k) ^ k).imc().dec_last(zero) == x, (x.enc_last(k) ^ k).dec_last(zero) == x, (x.dec(k) ^ k).mc().enc_last(zero) == x and (x.dec_last(k) ^ k).enc_last(zero) == x.", "quantifier": "every configuration except RISC-V-32 with zkne/zknd (refuted there, C41), all states and round keys", "why_tests_cant": "The repo tests one literal of the first equation.", "anchors": ["src/tests.rs:aesenc_test", "AesBlock::enc,dec,enc_last,dec_last,mc,imc"]}
{"id": "C16", "title": "chain_enc computes what its documentation says", "statement": "x.chain_enc(keys) equals (x ^ keys[0]).enc(keys[1])...enc(keys[n-1]) for every non-empty slice of any length, and panics exactly on the empty slice; for AesBlock, AesBlockX2 and AesBlockX4.", "quantifier": "every configuration except RISC-V-32 (refuted there, C41), all states, key slices of any length", "why_tests_cant": "Unbounded key-slice length and all values.", "anchors": ["src/lib.rs:chain_enc", "src/lib.rs:pre_enc"]}
{"id": "C17", "title": "chain_dec computes what its documentation says", "statement": "x.chain_dec(keys) equals (x ^ keys[0]).dec(keys[1])...dec(keys[n-1]) for every non-empty slice, and panics exactly on the empty slice; for the three block types.", "quantifier": "every configuration except RISC-V-32 (refuted there, C41), all states, key slices of any length", "why_tests_cant": "Unbounded key-slice length and all values.", "anchors": ["src/lib.rs:chain_dec", "src/lib.rs:pre_dec"]}
{"id": "C18", "title": "Byte-array conversions round-trip", "statement": "For AesBlock/X2/X4: new(b) and from(b) agree, <[u8;N]>::from(T::from(b)) == b for all byte arrays, and T::from(<[u8;N]>::from(t)) is t for all values.", "quantifier": "every configuration, all byte arrays and all values of the three types", "why_tests_cant": "2^128..2^512 values.", "anchors": ["AesBlock::new, From<[u8;16]>, store_to in every backend", "src/lib.rs:impl_common_ops"]}
{"id": "C19", "title": "u128 conversions are big-endian and round-trip", "statement": "u128::from(AesBlock::from(n)) == n, AesBlock::from(u128::from(b)) == b, and byte i of AesBlock::from(n) is (n >> (8*(15-i))) & 0xff on every target.", "quantifier": "every configuration (either endianness), all u128 and all blocks", "why_tests_cant": "2^128 values, both endiannesses.", "anchors": ["src/lib.rs:From<u128> for AesBlock", "src/lib.rs:From<AesBlock> for u128"]}
{"id": "C20", "title": "TryFrom<&[u8]> accepts exactly the slices that are long enough", "statement": "T::try_from(s) is Err(s.len()) when s.len() < N and otherwise Ok of the block made of the first N bytes (trailing bytes ignored), never panicking or reading out of bounds; N = 16, 32, 64.", "quantifier": "every configuration, slices of any length and content", "why_tests_cant": "Unbounded slice lengths.", "anchors": ["src/lib.rs:try_from_slice", "src/lib.rs:array_from_slice", "src/lib.rs:TryFrom<&[u8]>"]}
{"id": "C21", "title": "store_to writes exactly its N bytes or panics", "statement": "t.store_to(dst) panics iff dst.len() < N (leaving no partial write observable as success); otherwise dst's first N bytes become the bytes of t and every other byte and the length are unchanged; the raw stores never go out of bounds.", "quantifier": "every configuration, destinations of any length and content, N = 16, 32, 64", "why_tests_cant": "Unbounded destination lengths; out-of-bounds writes are invisible to value tests.", "anchors": ["AesBlock::store_to in every backend", "src/aesdefault_x2.rs:store_to", "src/aesdefault_x4.rs:store_to", "src/aesni_x2.rs", "src/aesni_x4.rs"]}
{"id": "C22", "title": "Bit operators act byte-wise", "statement": "&, |, ^, ! (and &=, |=, ^=) on AesBlock, AesBlockX2 and AesBlockX4 act on the byte representation byte by byte.", "quantifier": "every configuration, all values", "why_tests_cant": "2^256..2^1024 operand pairs.", "anchors": ["BitAnd,BitOr,BitXor,Not in every backend", "src/lib.rs:impl_common_ops"]}
{"id": "C23", "title": "zero, Default and is_zero", "statement": "zero() and default() are all-zero bytes; is_zero() is true iff every byte is zero; for the three types.", "quantifier": "every configuration, all values", "why_tests_cant": "A mask or lane error shows only for specific single-bit values.", "anchors": ["zero,is_zero in every backend", "src/lib.rs:Default"]}
{"id": "C24", "title": "== is byte equality", "statement": "a == b iff their byte representations are equal (hence an equivalence relation agreeing with ==0 of the xor), including the hand-written PartialEq impls; for the three types.", "quantifier": "every configuration, all pairs of values", "why_tests_cant": "All pairs.", "anchors": ["PartialEq in src/aes_x86.rs, src/aes_arm.rs, src/aesni_x2.rs, src/aesni_x4.rs and derived elsewhere"]}
{"id": "C25", "title": "Tuple conversions, broadcast and layout", "statement": "AesBlockX2/X4 built from tuples and taken apart round-trip in order; From<AesBlock>/From<AesBlockX2> broadcast; the bytes of a wide value are the concatenation of the bytes of its components in order.", "quantifier": "every configuration, all values", "why_tests_cant": "All values, three vector implementations.", "anchors": ["src/aesdefault_x2.rs", "src/aesdefault_x4.rs", "src/aesni_x2.rs", "src/aesni_x4.rs"]}
{"id": "C26", "title": "Hex formatting is the 32-digit big-endian hex of the block", "statement": "{:x}/{:X} print exactly two lower/upper-case digits per byte in byte order, prefixed by 0x/0X iff '#' is given; the text has fixed length, is injective, and parsing it back yields the block; it equals the zero-padded hex of u128::from(block).", "quantifier": "every configuration, all blocks, both alternate-flag values", "why_tests_cant": "2^128 values; no formatting test exists.", "anchors": ["src/lib.rs:LowerHex", "src/lib.rs:UpperHex"]}
{"id": "C27", "title": "Binary formatting is the 128-digit big-endian binary of the block", "statement": "{:b} prints eight binary digits per byte in byte order, prefixed by 0b iff '#'; fixed length, injective, parses back.", "quantifier": "every configuration, all blocks", "why_tests_cant": "2^128 values; no formatting test exists.", "anchors": ["src/lib.rs:Binary"]}
{"id": "C28", "title": "Display/Debug", "statement": "Display and Debug of AesBlock print lowercase hex, or uppercase hex without prefix under \"#\"; every other formatting flag (width, fill, precision, sign, zero, hex-debug) is ignored; Debug of AesBlockX2/X4 prints the tuple of the component blocks, one per indented line under \"#\". Into any sink, one that fails at any moment included, no formatter of the crate panics: it writes a prefix of the text, and all of it if it reports success.", "quantifier": "every configuration, all values, both alternate-flag values", "why_tests_cant": "2^128 values; no formatting test exists.", "anchors": ["src/lib.rs:Display", "src/lib.rs:Debug"]}
{"id": "C29", "title": "Portability: API programs observe the same results on every configuration", "statement": "A client program that issues any finite sequence of public API calls (constructors, conversions, bit operators, rounds, chains, key setup, encrypt/decrypt of 1/2/4 blocks, comparisons, formatting, stores), choosing each call from everything it has seen, sees exactly what it would see of plain bytes and FIPS-197, panics included; hence the same on any two targets. The two targets for which this is false are characterised as exactly: riscv32 with zk, and big-endian constant-time builds show every client what another explicit machine on plain bytes does (C41, C42), and differ from AES.", "quantifier": "all adaptive clients, all run lengths, all targets", "why_tests_cant": "Unbounded histories times pairs of targets; CI cannot run one history on all backends.", "anchors": ["src/lib.rs (whole public API)"]}
{"id": "C30", "title": "Wide operations are lane-wise", "statement": "enc, dec, enc_last, dec_last, chain_enc, chain_dec, &, |, ^, !, zero, is_zero, == on AesBlockX2/X4 equal the component-wise single-block operation.", "quantifier": "every configuration, all values, key slices of any length", "why_tests_cant": "All value tuples.", "anchors": ["src/aesdefault_x2.rs", "src/aesdefault_x4.rs", "src/aesni_x2.rs", "src/aesni_x4.rs", "src/lib.rs:impl_pre_encdec"]}
{"id": "C31", "title": "Each key gives a permutation", "statement": "For every key (and every array of round keys) encrypt_block and decrypt_block never fail and are bijections on blocks; encrypt_2_blocks, decrypt_2_blocks, encrypt_4_blocks and decrypt_4_blocks are bijections on AesBlockX2 and AesBlockX4. This holds even on RISC-V-32 and big-endian constant-time, where the permutation is not AES's.", "quantifier": "every configuration, all keys, all arrays of round keys, all blocks", "why_tests_cant": "Injectivity/surjectivity over 2^128 blocks.", "anchors": ["src/lib.rs:encrypt_block,decrypt_block"]}
{"id": "C32", "title": "No panic, no out-of-bounds access", "statement": "Key setup, decrypter/encrypter conversion, and encryption/decryption of 1, 2, 4 blocks never panic (index, unwrap, assert) and never perform an out-of-bounds raw read or write, for any input.", "quantifier": "every configuration (including RISC-V-32), all keys and blocks", "why_tests_cant": "Absence of panics/UB over all inputs.", "anchors": ["src/lib.rs:array_from_slice", "keygen_* (from_raw_parts_mut columns, unwrap)", "src/lib.rs:chain_enc asserts"]}
{"id": "C33", "title": "Configuration selection", "statement": "For every combination of target architecture, endianness, target features and cargo features, exactly one implementation of each of the three types is selected as the README says, the selected modules fit together (every method/module referred to exists), and every nightly feature gate and target feature the selected code needs is on. The one exception is part of the claim: big-endian AArch64/Arm with the aes feature selects a software AesBlock together with the chain code for Arm, and does not compile. Put together with C29: every valid configuration either is one of those that do not compile, or shows every client program the behaviour of AES, unless it is riscv32 with nightly, zkne and zknd or big-endian with constant-time, whose behaviour is given; and the crate's test suite passes exactly where every client sees AES.", "quantifier": "all cfg combinations closed under rustc's implied target features", "why_tests_cant": "The cfg space is combinatorial; CI builds nine points. (Refuted for big-endian AArch64 with aes: the build breaks.)", "anchors": ["src/lib.rs:44-121", "src/lib.rs:333-424", "README.md"]}
{"id": "C34", "title": "Constant time at source level, and where not", "statement": "On every build except the table-based one, the operations executed, the branches taken and the memory indices accessed by key setup, conversion between encrypters and decrypters, encryption and decryption of 1, 2 or 4 blocks, chains, round operations, byte conversions, stores, bit operators and is_zero depend only on which calls are made and on slice lengths, never on the contents of keys and blocks, over whole call histories. The exceptions are real: on the table-based build the accesses of encrypting one known block determine the whole key, and `==` of types with a derived PartialEq over several fields reveals whether the first fields are equal. As the README promises, a configuration that compiles is constant time in this sense exactly if the constant-time feature is on or an accelerated implementation is found.", "quantifier": "all targets and valid configurations, all pairs of client histories with calls of the same shape, all keys, blocks and slice lengths", "why_tests_cant": "A timing-independence claim is a relation between all pairs of runs.", "anchors": ["src/aes_bitslice.rs", "src/aes_table_based.rs", "src/aes_x86.rs", "src/aesni_x2.rs", "src/aesni_x4.rs", "src/aes_arm.rs", "src/aes_riscv64.rs", "src/aes_riscv32.rs", "src/aesdefault_x2.rs", "src/aesdefault_x4.rs", "src/lib.rs chain_enc, encrypt_block", "README.md"]}
{"id": "C35", "title": "Lookup tables are the standard's functions", "statement": "Each entry of TE0..TE4, TD0..TD4 is the (Inv)SubBytes/(Inv)MixColumns combination it stands for, for every index.", "quantifier": "all 256 indices of the 10 tables", "why_tests_cant": "2560 entries, of which vectors exercise few; a single wrong entry breaks a fraction of blocks.", "anchors": ["src/aes_table_based.rs:TE0..TE4,TD0..TD4"]}
{"id": "C36", "title": "mc and imc are linear over ^", "statement": "(a ^ b).mc() == a.mc() ^ b.mc(), the same for imc, and zero maps to zero.", "quantifier": "every configuration (RISC-V-32 included), all pairs of blocks", "why_tests_cant": "2^256 pairs.", "anchors": ["AesBlock::mc, AesBlock::imc"]}
{"id": "C37", "title": "imc moves through the decryption round (equivalent inverse cipher law)", "statement": "x.imc().dec... : for all x,k: (x ^ k).imc() == x.imc() ^ k.imc(), and x.dec(k.imc()) == (x.dec_last(k)).imc(); x.enc(k.mc()) == x.enc_last(k).mc().", "quantifier": "every configuration except RISC-V-32 with zkne/zknd (refuted there, C41), all states and round keys", "why_tests_cant": "2^256 pairs.", "anchors": ["AesBlock::dec,dec_last,imc,enc,enc_last,mc", "src/lib.rs:dec_round_keys"]}
{"id": "C38", "title": "Different keys give different encrypters", "statement": "AesNEnc::from is injective in its round keys: the first Nk words of the schedule are the key itself, so the key can be read off and distinct keys never share a schedule; likewise for decrypters.", "quantifier": "every configuration (including RISC-V-32 and big-endian constant-time), all pairs of keys", "why_tests_cant": "All pairs of keys.", "anchors": ["keygen_*", "src/lib.rs:implement_aes"]}
{"id": "C39", "title": "SubBytes of the bit-sliced code is the S-box in every lane", "statement": "The constant-time implementation's byte substitution and its inverse act on each of the 16 bytes independently as the FIPS S-box / inverse S-box, with no carry or shift leaking between bytes.", "quantifier": "all 128-bit states, all 16 lanes, both endiannesses", "why_tests_cant": "The unit test checks bytes 0..15 only; cross-lane leaks depend on neighbouring bytes.", "anchors": ["src/aes_bitslice.rs:subbytes,invsubbytes,mixcolumns,invmixcolumns,shiftrows,invshiftrows"]}
{"id": "C40", "title": "Composition of chains", "statement": "x.chain_enc(a ++ b) for non-empty a,b equals continuing from x.chain_enc(a) with one enc per key of b; chain_enc on all rounds keys but the last followed by enc_last is encrypt_block; same for dec.", "quantifier": "every configuration except RISC-V-32, key slices of any length", "why_tests_cant": "Unbounded slices.", "anchors": ["src/lib.rs:chain_enc,chain_dec,encrypt_block,decrypt_block"]}
{"id": "C41", "title": "RISC-V-32 (zkne/zknd) is not AES [refutation]", "statement": "On RISC-V-32 with zkne+zknd: chain_enc/chain_dec violate their documentation, key expansion omits RotWord (for which keys a schedule is nevertheless the standard's is characterised exactly), encrypt_block and decrypt_block are not FIPS-197 for any of the key sizes, decrypt_block does not invert encrypt_block. What each computes is characterised for all inputs and key sizes.", "quantifier": "witness keys/blocks for the refutations; all inputs for the characterisation", "why_tests_cant": "CI only runs clippy for RV32, without the nightly feature, so this code is never even compiled there.", "anchors": ["src/aes_riscv32.rs:pre_enc,pre_dec,keygen_128,keygen_192,keygen_256", "src/lib.rs:342-394"]}
{"id": "C42", "title": "Big-endian constant-time key schedule is wrong [refutation]", "statement": "With the constant-time feature on a big-endian target, key expansion rotates the wrong way and puts Rcon in the wrong byte, so the schedule of every key of every size is wrong and encryption and decryption are FIPS-197 with another key schedule (but decrypt still inverts encrypt, C05).", "quantifier": "all keys for the schedules, witness blocks for the ciphers, all inputs for the characterisation", "why_tests_cant": "CI has no big-endian target.", "anchors": ["src/aes_bitslice.rs:keygen_128,keygen_192,keygen_256,RCON,ror8_32"]}
{"id": "C43", "title": "Debug of an encrypter or decrypter prints its round keys", "statement": "{:?} of AesNEnc/AesNDec is the type name and the list of all round keys in hex (pretty-printed under '#'), so the text of an encrypter made from a key contains that key: these objects must not be logged.", "quantifier": "every configuration, all round keys, all three key sizes, all formatting flags", "why_tests_cant": "2^128 and more values; no formatting test exists.", "anchors": ["src/lib.rs:implement_aes (#[derive(Debug)])", "src/lib.rs:Debug for AesBlock"]}
{"id": "C44", "title": "Only documented misuse panics, in any history", "statement": "In every sequence of API calls on every configuration, a call that does not return normally panics (never undefined behaviour), was either store_to with a slice shorter than the block or chain_enc/chain_dec with no keys, and leaves all values of the client unchanged; and those misuses do panic.", "quantifier": "all configurations, all adaptive clients, all call histories of any length, all arguments", "why_tests_cant": "Unbounded histories and arguments; a test of a panic-free path says nothing about other paths.", "anchors": ["src/lib.rs:chain_enc,chain_dec,TryFrom,From", "src/*.rs:store_to,new,from (unsafe loads and stores)"]}
{"id": "C45", "title": "How a sequence of blocks is cut into 1-, 2- and 4-block calls does not matter", "statement": "Encrypting (decrypting) any list of blocks by any mixture of encrypt_block, encrypt_2_blocks and encrypt_4_blocks calls, in order, gives the list of the single-block results; so any two cuttings of the same list agree.", "quantifier": "every configuration, every encrypter/decrypter (any key size, any round keys), every list of blocks of any length, every cutting into groups of 1, 2, 4", "why_tests_cant": "Unboundedly many lists and cuttings; tests use single literal values per width.", "anchors": ["src/lib.rs:AesEncrypt,AesDecrypt", "src/aesdefault_x2.rs", "src/aesdefault_x4.rs", "src/aesni_x2.rs", "src/aesni_x4.rs"]}
{"id": "C46", "title": "A message encrypted on one machine is decrypted by any other, whatever the widths used", "statement": "For a byte message of any whole number of blocks, loading it with from/new, encrypting it with any mixture of widths on one configuration and decrypting the result with any other mixture on any other configuration returns the message, and the bytes in between are FIPS-197 of each block.", "quantifier": "all keys of the three sizes, all messages of any number of blocks, all cuttings on both sides, all pairs of configurations (RV32 and big-endian bitslice excluded where they are shown to be wrong)", "why_tests_cant": "Unbounded messages, and no test runs two configurations against each other.", "anchors": ["src/lib.rs:implement_aes,AesEncrypt,AesDecrypt", "src/*.rs:new,store_to,From<[u8;N]>"]}
{"id": "C47", "title": "Round functions add the round key last", "statement": "enc(x,k) = enc(x,0) xor k, likewise dec, enc_last, dec_last, for one, two and four blocks; so enc(x,k) = enc(x,k') iff k = k', and enc(x,k) = enc(y,k) iff x = y. enc(x,0) is mc of enc_last(x,0) except on RV32.", "quantifier": "every configuration, every width, all states and keys", "why_tests_cant": "2^256 pairs per width and configuration.", "anchors": ["src/*.rs:enc,dec,enc_last,dec_last,mc"]}
{"id": "C48", "title": "Key expansion through raw memory stays in bounds, aligned, and yields the same keys", "statement": "The key expansions that reinterpret the zeroed array of round keys as 32-bit columns (bitslice, Arm, RV32), run on a byte-addressed memory where an access out of bounds or at a misaligned address is undefined behaviour, never fault (so they touch no memory outside the array) and leave exactly the round keys of the functional model in the array; with an address that is not 4-aligned, or a longer slice, the access would be undefined.", "quantifier": "all keys of the three sizes, all suitably aligned addresses", "why_tests_cant": "A test sees one address and one layout, and undefined behaviour need not show.", "anchors": ["src/aes_bitslice.rs:keygen_128,keygen_192,keygen_256", "src/aes_arm.rs:keygen_*", "src/aes_riscv32.rs:keygen_*"]}
{"id": "C49", "title": "192-bit keys on RV64 depend on an unspecified tuple layout", "statement": "keygen_192 of the RV64 back-end transmutes a tuple whose field order in memory Rust does not specify: it is FIPS-197 key expansion for all keys if and only if the compiler lays the words out in declaration order.", "quantifier": "all 192-bit keys, all assignments of words to offsets", "why_tests_cant": "A test runs with the layout of one compiler version.", "anchors": ["src/aes_riscv64.rs:keygen_192"]}
{"id": "C50", "title": "store_to writes its bytes and nothing else, and nothing at all when it panics", "statement": "store_to on a slice at any address in memory: if the slice is long enough the call returns, the bytes of the value are at the slice's address and every other byte of memory (inside or outside the slice) is unchanged; if it is too short the call panics and all of memory is unchanged, so a caller that catches the panic sees no partial write. Byte by byte: each byte of the destination is written exactly once, upwards, so a call cut short after k writes has put the first k bytes in place and touched nothing else.", "quantifier": "every configuration, all three widths, all values, all slices (address, length), all memory contents; every crash point within the call", "why_tests_cant": "Unbounded slices and memories; the tests call store_to only through conversions with exact lengths.", "anchors": ["src/*.rs:store_to", "src/aes_table_based.rs:store_u32_be"]}
{"id": "C51", "title": "The crate's own test suite passes exactly on the targets the other properties hold on", "statement": "Each #[test] function (the seven of src/tests.rs, and the two in src/aes_bitslice.rs where that module is selected), run on any configuration: on every configuration but RV32 with Zkne/Zknd and the constant-time code on a big-endian machine all return without a panic; on RV32 all seven panic; on big-endian constant-time builds the round test and the two S-box unit tests return and the six key-expansion and cipher tests panic. So running the suite on a machine decides whether that machine's build is one of the broken two, that is, whether any client of that build can ever see something other than AES.", "quantifier": "every configuration (the wide types included), every build profile", "why_tests_cant": "A test run covers the configuration of the machine it runs on; the project's CI never runs on the two that fail.", "anchors": ["src/tests.rs:aesenc_test", "src/tests.rs:expansion_of_128_bit_key", "src/tests.rs:expansion_of_192_bit_key", "src/tests.rs:expansion_of_256_bit_key", "src/tests.rs:aes_128_test", "src/tests.rs:aes_192_test", "src/tests.rs:aes_256_test", "src/aes_bitslice.rs:test_subbytes", "src/aes_bitslice.rs:test_invsubbytes"]}
{"id": "C52", "title": "What a leaked round key gives away", "statement": "Whichever round key of an AES-128 encrypter is taken, and whatever its value, exactly one key has it, and running the FIPS-197 key expansion backwards from it computes that key. For AES-192 one round key and the first half of the next have this property, for AES-256 two consecutive round keys; a single one of those fits at least two keys. Decrypters likewise: 128-bit keys whose decrypters share one round key are equal.", "quantifier": "every configuration (for uniqueness RV32 and big-endian constant-time included), every round, all values of the round keys, all keys", "why_tests_cant": "All 2^128 values of each round key; uniqueness is a statement about all pairs of keys.", "anchors": ["src/*.rs:keygen_128,keygen_192,keygen_256", "src/lib.rs:implement_aes"]}
{"id": "C53", "title": "Threads sharing an encrypter and a memory do not disturb each other", "statement": "Any number of threads share one encrypter (or decrypter) and each works through a list of chunks of 16, 32 or 64 bytes: load, encrypt with the function of that width, store_to. If the buffers do not overlap (in place is allowed), then under every interleaving of the single byte loads and stores: at every moment memory holds only old bytes and bytes of the right ciphertext blocks, in the places they belong; bytes outside the destinations are never touched; a thread that finishes has all its ciphertext in place and did not panic; and it finishes after as many steps as it has bytes to load and store. In particular a message encrypted in place by several threads is the message encrypted block by block. Under a fair scheduler there is a moment from which on all threads have returned and all results are in place.", "quantifier": "every configuration but the two broken ones, all key sizes and keys, any number of threads, any division of the work, all memories, all schedules, all moments (crash points)", "why_tests_cant": "Schedules cannot be enumerated; races show up rarely.", "anchors": ["src/*.rs:store_to", "src/lib.rs:implement_aes", "src/*.rs: no static mut, no interior mutability"]}
{"id": "C54", "title": "One differing byte spreads to a column in one round and to the whole block in two", "statement": "If two blocks differ in exactly one byte i, then after enc with the same key they differ in exactly the four bytes of the column that ShiftRows moves byte i to, and after a second enc (any key) in all sixteen bytes; the same holds for dec with InvShiftRows. Two different blocks and their images under mc differ in at least five byte positions together, and so do they with their images under imc.", "quantifier": "all pairs of blocks, all positions, all round keys, all configurations (for dec, mc and imc all but riscv32)", "why_tests_cant": "Quantifies over all pairs of 128-bit blocks; a fault such as a repeated matrix row or a missed byte would show up only for particular differences.", "anchors": ["src/*.rs:enc", "src/*.rs:dec", "src/*.rs:mc", "src/*.rs:imc"]}
{"id": "C55", "title": "What the repository's CI settles and what it never looks at", "statement": "Every CI job compiles the crate in a configuration rustc can produce; every test job selects an implementation and the crate's test suite passes on it (CI is green); jobs that also run on stable or beta toolchains need no unstable feature. The implementations the test jobs run are exactly those on which every client program sees AES: RISC-V-32 and big-endian constant-time, the two that are wrong (C41, C42), are the two CI never runs. No job of any kind even compiles aes_riscv32: the clippy jobs named RV64 and RV32 leave out --features=nightly and so look at the table-based code.", "quantifier": "all jobs of the workflow files; all implementations; all client programs", "why_tests_cant": "It is a statement about what the tests themselves cover, tied to all client programs.", "anchors": [".github/workflows/rust.yml", ".github/workflows/runtest.yml", "ci/run-docker.sh", "src/lib.rs:44-121", "src/tests.rs"]}
{"id": "C56", "title": "Four rounds make at least 25 bytes differ", "statement": "Take any two different blocks through any number of enc rounds with the same round keys: the blocks entering the rounds differ in at least 25 byte positions, summed over any four consecutive rounds (so in 25*(n/4) over n rounds), and the bound is reached. The same for dec. It is the bound on active S-boxes that the differential security argument for AES, and for permutations built from these rounds, starts from.", "quantifier": "every configuration (RISC-V-32 included), all pairs of different blocks, all sequences of round keys of any length, all windows", "why_tests_cant": "All pairs of blocks and all key sequences; trails that break the bound would be too rare to hit.", "anchors": ["src/*.rs:enc", "src/*.rs:dec"]}
{"id": "C57", "title": "What src/lib.rs needs of a backend, and what the two wrong backends need", "statement": "If an AesBlock module meets a contract on bytes (constructors, store_to, comparison and bit operations act on the 16 bytes; enc, enc_last, dec, dec_last, mc and imc are the FIPS-197 rounds; pre_enc/pre_dec, if any, add their key first; the key schedules are those of FIPS-197), then any program using the crate over it, with the default wide types, observes what it would observe with AES. The contract is met on exactly the targets other than RISC-V-32 and big-endian bit-slicing. Changing the word order of decryption, the key addition of pre_enc/pre_dec and the rotation in the key schedules makes the RISC-V-32 module meet it; changing the rotation and the place of the round constant makes the bit-sliced one meet it on big-endian targets.", "quantifier": "all backends, all adaptive programs of any length over the public API; every target", "why_tests_cant": "A maintainer adding or repairing a backend needs a contract that suffices for every program, key and message; tests run a few.", "anchors": ["src/lib.rs", "src/aesdefault_x2.rs", "src/aesdefault_x4.rs", "src/aes_riscv32.rs:outer!,dec,dec_last,mc,imc,pre_enc,pre_dec,keygen_128,keygen_192,keygen_256", "src/aes_bitslice.rs:keygen_128,keygen_192,keygen_256"]}
{"id": "C58", "title": "Debug and release builds behave alike, on every pointer width", "statement": "Whether the crate is built with or without debug assertions, with or without overflow checks, and for a usize of any width from 16 bits, any program using it observes the same: no debug_assert! can fail, no usize subtraction or addition can overflow, and the out-of-bounds read that a release build would perform where a debug build asserts cannot happen. A documented misuse (empty key slice, short buffer) panics in every build.", "quantifier": "all build profiles and pointer widths, every target, all adaptive programs of any length over the public API", "why_tests_cant": "cargo test runs one profile on one machine; that a debug assertion never fires and that release builds never read out of bounds is a statement about every call of every program.", "anchors": ["src/lib.rs:array_from_slice,try_from_slice,dec_round_keys,enc_round_keys,chain_enc,chain_dec", "src/aesdefault_x2.rs:new", "src/aesdefault_x4.rs:new", "src/aes_table_based.rs:load_u32_be", "src/aes_bitslice.rs:keygen_128,keygen_192,keygen_256", "src/aes_arm.rs:keygen_128,keygen_192,keygen_256", "src/aes_riscv32.rs:keygen_128,keygen_192,keygen_256"]}
{"id": "C59", "title": "Differential bound of the public rounds", "statement": "Fix which differences two blocks shall have before a run of rounds and after each of its rounds. Of all starting blocks and all round keys, at most a fraction 2^(-6w) makes enc (or dec) go that way, w being the number of nonzero difference bytes that enter the rounds; so at most 2^(-150) over any four rounds from different blocks, 2^(-300) over eight. For one round and a one-byte difference, at most 2^122 blocks lead to a given difference, for every key.", "quantifier": "every target, every sequence of differences of any length, all blocks and keys", "why_tests_cant": "It bounds the size of a set of pairs of blocks and keys, out of 2^(128(n+1)); no sample shows it.", "anchors": ["src/lib.rs:AesBlock", "src/aes_table_based.rs:enc,dec", "src/aes_bitslice.rs:enc,dec", "src/aes_x86.rs:enc,dec", "src/aes_arm.rs:enc,dec", "src/aes_riscv64.rs:enc,dec", "src/aes_riscv32.rs:enc,dec"]}
{"id": "C60", "title": "The guarantees hold of the source text", "statement": "What the theorems promise a client holds of the crate as its source text reads: translated mechanically from the text, every public function, on every block width and key size, in every build profile and on every target, gives the results the model gives; the conditional compilation selects the same modules and feature gates in every configuration; so, in every configuration that compiles, a client of the source text sees exactly AES (or the documented deviations of RISC-V-32 and big-endian constant-time builds), and a call faults only by a panic on documented misuse.", "quantifier": "every build profile, byte order, target and configuration; every function of the API; all arguments; every client and every number of calls", "why_tests_cant": "It is an equality of functions and of behaviours over all inputs, adaptive clients and configurations, most of which cannot be run on one machine.", "anchors": ["src/lib.rs", "src/aes_table_based.rs", "src/aes_bitslice.rs", "src/aes_x86.rs", "src/aes_arm.rs", "src/aes_riscv64.rs", "src/aes_riscv32.rs", "src/aesdefault_x2.rs", "src/aesdefault_x4.rs", "src/aesni_x2.rs", "src/aesni_x4.rs"]}
{"id": "C61", "title": "The leakage guarantees hold of the source text", "statement": "What a local observer of timing, branches and memory accesses learns from a client's calls, computed from the crate as its source text reads (translated mechanically, with an event for every operation, branch and memory access), is what the leakage model says, in every build profile and on every target. So: with the `constant-time` feature, or where an accelerated implementation is selected, and only then, setting up a key and encrypting or decrypting any values leaks nothing about keys and data; programs of silent calls that differ only in their data leak the same; and on the table-based implementation the trace of encrypting one known block determines the whole key, for each key size.", "quantifier": "every build profile, byte order, target and valid configuration; every client and number of calls; all keys, key sizes, blocks and widths", "why_tests_cant": "It compares the executions on all pairs of secrets; a test observes results, and measures timing of a few inputs on one machine.", "anchors": ["src/lib.rs", "src/aes_table_based.rs", "src/aes_bitslice.rs", "src/aes_x86.rs", "src/aes_arm.rs", "src/aes_riscv64.rs", "src/aes_riscv32.rs", "src/aesdefault_x2.rs", "src/aesdefault_x4.rs", "src/aesni_x2.rs", "src/aesni_x4.rs", "README.md"]}
{"id": "C62", "title": "The pointers obey Rust's aliasing rules", "statement": "Under the aliasing model Stacked Borrows (every reference has a tag, every byte of memory a stack of the tags that may use it, reference arguments are protected while the call runs): given a valid `&mut [u8]`, `store_to` breaks no rule, returns (or panics if the slice is too short, C21), and leaves the pointers of the caller exactly as a plain write to the slice would; given an invalid one it is undefined behaviour. The same for `try_from(&[u8])` and `from(&[u8; N])` with a plain read, and for `&=`, `|=`, `^=` with a plain write to the variable. Any sequence of the two on slices that are pairwise equal or disjoint is well-defined and has the effect of the stores one after the other. `<[u8; N]>::from`, `from([u8; N])` and the key expansions that view an array of blocks as a slice of `u32` break no rule wherever their local array is placed, return what the API-level model says, and leave no memory and no pointer behind. All this holds of the source text of these functions, in every build.", "quantifier": "every target, width and build profile; all values, keys, byte orders; every state of memory and borrow stacks; every slice, valid or not, at every address; every placement of the local arrays; every sequence of calls", "why_tests_cant": "Breaking an aliasing rule has no effect that a test can see until an optimiser relies on it; Miri checks single executions, and none of the accelerated backends.", "anchors": ["src/lib.rs: array_from_slice, try_from_slice, impl_common_ops", "src/*.rs: store_to, From<[u8; N]>, new", "src/aes_bitslice.rs: keygen_128, keygen_192, keygen_256", "src/aes_arm.rs: keygen_128, keygen_192, keygen_256", "src/aes_riscv32.rs: keygen_128, keygen_192, keygen_256"]}
{"id": "C63", "title": "No unknown instruction, and exactly which CPUs run which build", "statement": "In every valid configuration that compiles, in every build profile: on a CPU that implements the `target_feature`s of the configuration, whatever a program does with the crate, every instruction that the crate executes is known to the CPU; and every intrinsic that the text of a selected module names exists for the architecture with its target features enabled. Conversely, the crate compiled for a target runs on a CPU, for all programs, exactly if the CPU implements the extensions required by that implementation (none for the portable ones, which execute no special instruction); and on a CPU without the AES extension every program that sets up a key and encrypts (or decrypts) a value of any width reaches an instruction that the CPU does not know, whatever the key and the data.", "quantifier": "all valid configurations and build profiles, all CPUs (sets of extensions), all client programs of any length, all keys, blocks, key sizes and widths", "why_tests_cant": "A test runs on one CPU with one set of flags, and an instruction on a path that the test does not take, or that this CPU happens to know, goes unnoticed.", "anchors": ["README.md:6-40", "src/lib.rs: cfg_if! ladders", "src/aes_x86.rs, src/aes_arm.rs, src/aes_riscv64.rs, src/aes_riscv32.rs, src/aesni_x2.rs, src/aesni_x4.rs: every intrinsic"]}
{"id": "C64", "title": "What a call costs: data-independent work, chains never dearer than separate calls, vector AES as advertised", "statement": "On every implementation and in every build profile, whatever a program has done before: a call of an operator, of enc/dec/enc_last/dec_last, chain_enc/chain_dec, mc/imc, of a key setup, of decrypter/encrypter, of encrypt/decrypt of 1, 2 or 4 blocks that returns, performs a fixed number of operations and table look-ups that depends only on the function, the width, the key size and the number of keys, never on data or keys (also on the table-based implementation). chain_enc and chain_dec never cost more than the separate calls that they replace, and exactly one addition per inner round less where the hardware round starts with the addition (ARM, RV32). An operation on 2 or 4 blocks costs the same as on one block with VAES (AVX-512 for 4), and otherwise never more than on the blocks one by one.", "quantifier": "all implementations and build profiles, all client programs and histories, all data, keys, key sizes, widths and numbers of keys", "why_tests_cant": "A benchmark measures some inputs on one machine, and cannot show that no input takes another path; the number of keys of a chain is unbounded.", "anchors": ["src/lib.rs:371 chain_enc, chain_dec (\"in the most optimized way\")", "src/lib.rs:333-426 impl_common_ops chain functions", "src/lib.rs:467-515 encrypt_*, decrypt_*", "README.md:6-25 hardware used per configuration", "src/aesni_x2.rs", "src/aesni_x4.rs", "src/aesdefault_x2.rs", "src/aesdefault_x4.rs"]}
{"id": "C65", "title": "Linear bound of the public rounds", "statement": "A linear approximation of a round says that the parity of chosen input bits (mask u) equals the parity of chosen output bits (mask v). For enc and for dec, with every key, the number of blocks for which it is right and the number for which it is wrong differ by at most 2^(128-3w), w being the number of bytes that u touches; the key only decides which of the two is larger. A trail of approximations through n rounds that starts with a nonzero mask has at most 2^(-75(n/4)) of the imbalance it could have, so 2^(-150) for eight rounds. The imbalance of n rounds together is the sum over all trails; its square, averaged over all round keys, is the sum over all trails of the squares.", "quantifier": "every target, every pair of masks, every trail of any length, all keys", "why_tests_cant": "An imbalance is a sum over all 2^128 blocks, and the bound is for every one of the 2^256 pairs of masks.", "anchors": ["src/lib.rs:AesBlock", "src/aes_table_based.rs:enc,dec", "src/aes_bitslice.rs:enc,dec", "src/aes_x86.rs:enc,dec", "src/aes_arm.rs:enc,dec", "src/aes_riscv64.rs:enc,dec", "src/aes_riscv32.rs:enc,dec"]}
{"id": "C66", "title": "Column symmetry of the rounds, and how the key schedule breaks it", "statement": "Rotating the columns of the block and of every key (bytes b[4..16] followed by b[0..4]) rotates the columns of what enc, enc_last, dec, dec_last, mc, imc, chain_enc and chain_dec return and changes nothing else. So a block of four equal columns stays one as long as the round keys are. The key schedule prevents that: for every key, of any three consecutive round keys of Aes128Enc, four of Aes192Enc and five of Aes256Enc, at least one does not consist of four equal columns.", "quantifier": "every target (the deviating ones included), every block, every list of keys of any length, every cipher key", "why_tests_cant": "The symmetry is about all pairs of runs of a round (2^256 inputs) and chains of any length; the claim on round keys is about all 2^128, 2^192 and 2^256 keys, and no test looks for a key that breaks it.", "anchors": ["src/lib.rs:AesBlock,chain_enc,chain_dec,Aes128Enc,Aes192Enc,Aes256Enc", "src/aes_table_based.rs", "src/aes_bitslice.rs", "src/aes_x86.rs", "src/aes_arm.rs", "src/aes_riscv64.rs", "src/aes_riscv32.rs"]}
{"id": "C67", "title": "Threads on any memory, and no data race", "statement": "Threads that share an encrypter or decrypter, and whose buffers do not overlap, never make conflicting accesses (no two of them touch the same byte, one of them storing). On any coherent memory, where a load may return what the thread itself stored there last or any value another thread stores there at any time, they end exactly where they would if they took turns on an ordinary memory: old bytes and AES of old blocks, in the end the latter. The same holds when the encrypter (decrypter) itself occupies bytes of that memory, in any representation, and every call loads it from there through &self, provided no buffer overlaps it; and it stays as it was. So a message divided among threads in any way and encrypted in place is AES of each of its blocks with nothing around it touched, and decrypted in place by other threads, with another division, on another target, it is the message again.", "quantifier": "all targets, all keys, any number of threads, any division of the work, every execution of the weak memory (all that TSO, Arm, RISC-V or relaxed atomics allow, and more)", "why_tests_cant": "Weak behaviours show up rarely and depend on the machine; a test sees a few executions of one of them.", "anchors": ["src/lib.rs:AesEncrypt,AesDecrypt,store_to,From<&[u8;16]>", "src/aesdefault_x2.rs", "src/aesdefault_x4.rs", "src/aesni_x2.rs", "src/aesni_x4.rs"]}
{"id": "C68", "title": "Integral property of the public rounds: few rounds are no cipher", "statement": "With any keys: while one byte of a block runs through its 256 values, every byte of what two enc (two dec) make of it takes every value exactly once. For any set of different blocks in which one byte is free (with a block it contains all blocks that differ from it in that byte only), the XOR of the results of three enc (three dec) is the zero block; the same holds for four rounds if the four bytes that ShiftRows (InvShiftRows for dec) moves to one column are free. So chain_enc and chain_dec with four or five keys can be told from a random permutation.", "quantifier": "every target (on RISC-V-32 with the row shift its dec uses), all keys, all sets of blocks of any size", "why_tests_cant": "It is about all keys and all sets of blocks; the four-round set has at least 2^32 blocks.", "anchors": ["src/lib.rs:AesBlock,chain_enc,chain_dec", "src/aes_table_based.rs:enc,dec", "src/aes_bitslice.rs:enc,dec", "src/aes_x86.rs:enc,dec", "src/aes_arm.rs:enc,dec", "src/aes_riscv64.rs:enc,dec", "src/aes_riscv32.rs:enc,dec"]}
{"id": "C69", "title": "Types: plain data, thread-safe, no drop code, with a known layout", "statement": "Dropping a block, an encrypter or a decrypter runs no code. All types are Send, Sync, Unpin and unwind-safe because everything they are made of is; the crate asserts none of this with an unsafe impl. Blocks are Copy, encrypters and decrypters only Clone. The crate has no mutable global. A block takes 16 bytes with an alignment of 4, 8 or 16, a pair 32, a quadruple 64, an array of blocks has no gaps, an encrypter has room for its 11, 13 or 15 round keys.", "quantifier": "all struct declarations, impl headers and statics of the source text, on every side of every cfg and inside every macro; all plausible ABIs (alignment of u64, u128 and Neon registers)", "why_tests_cant": "A test sees one configuration on one ABI; auto traits and the absence of drop code are facts about all items.", "anchors": ["src/*.rs: struct, impl, static items", "src/lib.rs:implement_aes"]}
{"id": "C70", "title": "Nothing erases a key", "statement": "A key can be read off the bytes of every encrypter and every decrypter made from it, by a function fixed in advance: the first round keys, or the last ones of a decrypter (after MixColumns). No call, by however many threads, under whatever schedule, on whatever coherent memory, changes these bytes, and dropping the value runs no code: a program that must not leave its key in memory has to erase it itself.", "quantifier": "all targets (decrypters, and the bytes during use: all but the broken RISC-V-32; during use also not big-endian bit-slicing), key sizes, keys, representations in memory, numbers of threads, work, schedules, executions, moments", "why_tests_cant": "That nothing is erased at any moment of any history is not visible in outputs.", "anchors": ["src/lib.rs:implement_aes", "src/*.rs:keygen_128,keygen_192,keygen_256", "src/lib.rs:dec_round_keys"]}
{"id": "C71", "title": "Every configuration offers the same API, except constants as patterns", "statement": "Whatever the target, the compiler flags and the features of the crate, a user finds the same public functions with the same signatures and the same trait implementations (by hand or derived). One thing differs: a constant block can be used as a pattern in a match except where the x86 or Arm instructions are compiled in, because there PartialEq is not derived; likewise for the wide types. So adding a CPU feature to the flags can make a program stop compiling.", "quantifier": "all pairs of configurations; for patterns all configurations", "why_tests_cant": "One build sees one configuration; that all of them agree is a fact about the alternatives in the source.", "anchors": ["src/*.rs: impl headers, derives, pub fn signatures", "src/lib.rs:44-121,333-424"]}
{"id": "C72", "title": "Modes of operation built from the API", "statement": "A program that does CBC decryption or counter mode with the functions on one, two and four blocks and the wide ^, cutting the message in any way, computes the mode of SP 800-38A; what one machine encrypts every other decrypts, with other pieces. An encrypter undoes its own counter mode on every target, and its decrypter its CBC mode on all but RISC-V-32. With a 128-bit counter turned into a block by From<u128>, no two of 2^128 successive blocks of the key stream are equal.", "quantifier": "all targets (for the standard: all but the two wrong ones), key sizes, keys, initialization vectors, counters, messages of any number of blocks, cuts, encrypters of any history", "why_tests_cant": "Messages, cuts and pairs of machines are unbounded.", "anchors": ["src/lib.rs:AesEncrypt,AesDecrypt", "src/aesdefault_x2.rs, src/aesdefault_x4.rs, src/aesni_x2.rs, src/aesni_x4.rs: BitXor, From", "src/lib.rs:From<u128>"]}
