{"id": "C01", "title": "Chunking independence of eager hashers", "statement": "Feeding a message to a hasher through any sequence of `update` calls (empty chunks included) leaves it in the same observable state as one `update` with the concatenation: every later `finalize`, `update` or serialization gives identical bytes.", "quantifier": "every eager-buffered algorithm (any block size > 0), every prior hasher state, every finite list of byte strings", "why_tests_cant": "The number of inputs/splits is infinite; a test fixes finitely many. Off-by-one errors at buffer boundaries only show for particular (position, length) pairs.", "anchors": ["digest::CoreWrapper/block_buffer::BlockBuffer (external, used by every crate)", "sha2/src/core_api.rs: update_blocks", "sha3/src/macros.rs: update_blocks", "md5/src/lib.rs: update_blocks"]}
{"id": "C02", "title": "Chunking independence of lazy hashers", "statement": "Same as C01 for the algorithms that must hold back the last full block (BLAKE2b/2s, Skein): the final block is never processed early, whatever the chunk boundaries, and it is non-empty whenever the message is non-empty.", "quantifier": "every lazy-buffered algorithm, every prior state, every finite list of byte strings", "why_tests_cant": "The number of inputs/splits is infinite; a test fixes finitely many. A message ending exactly on a block boundary is the rare failing case.", "anchors": ["blake2/src/macros.rs: update_blocks, finalize_variable_core", "skein/src/lib.rs: update_blocks"]}
{"id": "C03", "title": "Every API history computes the hash of the bytes logged since the last reset", "statement": "For any interleaving of new / update / clone / reset / finalize_reset / finalize / serialize+deserialize over any number of hasher handles, each produced digest equals the one-shot digest of exactly the bytes that handle logically contains (bytes since creation or last reset, inherited through clone or deserialization).", "quantifier": "every finite operation history over any set of handles, every algorithm whose core satisfies the block-fold law", "why_tests_cant": "Histories are unbounded and interleave; tests only run a few fixed call sequences.", "anchors": ["digest::CoreWrapper (external)", "all */src/lib.rs: Reset, FixedOutputCore, SerializableState impls"]}
{"id": "C04", "title": "State serialization round-trips and resumes exactly", "statement": "For every hasher state reachable through the API, deserializing its serialized bytes succeeds and yields a hasher that behaves identically (same digest for every continuation).", "quantifier": "every reachable hasher state of every serializable algorithm, every continuation message", "why_tests_cant": "The state space is 2^(hundreds); the tests serialise a single fixed state per algorithm.", "anchors": ["*/src/*.rs: SerializableState::serialize/deserialize", "sha2/src/core_api.rs", "sha3/src/macros.rs", "gost94/src/gost94_core.rs", "streebog/src/core_api.rs"]}
{"id": "C05", "title": "Deserialization never yields an ill-formed hasher", "statement": "Deserializing arbitrary bytes of the right length either fails or yields a hasher whose buffered byte count is within the block and that re-serializes to exactly the given bytes (no two byte strings describe the same state, no out-of-range position can reach `update`/`finalize`).", "quantifier": "every byte string of the serialized length", "why_tests_cant": "Adversarial byte strings cannot be enumerated.", "anchors": ["*/src/*.rs: SerializableState::deserialize", "block_buffer::BlockBuffer::deserialize (external)", "kupyna/src/long.rs", "groestl/src/compress*.rs"]}
{"id": "C06", "title": "SHA-224/SHA-256 equal FIPS 180-4", "statement": "`Sha256`/`Sha224` return the FIPS 180-4 digest of the message.", "quantifier": "every message shorter than 2^61 bytes, every chunking", "why_tests_cant": "No finite vector set covers all messages; the software schedule is 4-lane unrolled and can be wrong only for lanes/paths a vector set does not distinguish.", "anchors": ["sha2/src/core_api.rs: Sha256VarCore", "sha2/src/sha256/soft.rs", "sha2/src/consts.rs"]}
{"id": "C07", "title": "SHA-384/512, SHA-512/224, SHA-512/256 equal FIPS 180-4", "statement": "`Sha512`, `Sha384`, `Sha512_256`, `Sha512_224` return the FIPS 180-4 digest of the message.", "quantifier": "every message shorter than 2^125 bytes, every chunking", "why_tests_cant": "See C06; also the 128-bit length field is never exercised above 2^64 by tests.", "anchors": ["sha2/src/core_api.rs: Sha512VarCore", "sha2/src/sha512/soft.rs", "sha2/src/consts.rs"]}
{"id": "C08", "title": "SHA-1 equals FIPS 180-4", "statement": "`Sha1` returns the FIPS 180-4 SHA-1 digest of the message.", "quantifier": "every message shorter than 2^61 bytes, every chunking", "why_tests_cant": "The number of inputs/splits is infinite; a test fixes finitely many.", "anchors": ["sha1/src/lib.rs", "sha1/src/compress/soft.rs"]}
{"id": "C09", "title": "Hardware backends agree with the portable ones", "statement": "Whichever compression backend is selected at compile time or by CPU detection, the result of compressing any sequence of blocks from any state is the same.", "quantifier": "every build configuration and CPU feature set, every chaining state and every list of blocks (odd and even counts), every backend (SHA-1/SHA-256 x86 SHA-NI; SHA-512 AVX2; SHA-1/256/512 aarch64; SHA-256/512 RISC-V Zknh 32 and 64 bit, unrolled and compact; SHA-256/512 wasm simd128; SHA-1/256/512 and MD5 LoongArch assembly)", "why_tests_cant": "CI machines run only some backends; equality on vectors does not give equality on all states/blocks.", "anchors": ["sha2/src/sha256/x86_shani.rs", "sha2/src/sha256/aarch64.rs", "sha2/src/sha256/wasm32.rs", "sha2/src/*/loongarch64_asm.rs", "sha1/src/compress/loongarch64_asm.rs", "md5/src/compress/loongarch64_asm.rs", "sha2/src/sha256.rs", "sha2/src/sha512.rs", "sha1/src/compress.rs", "md5/src/compress.rs", "sha2/src/sha256/riscv_zknh*.rs", "sha2/src/sha512/x86_avx2.rs", "sha2/src/sha512/riscv_zknh*.rs", "sha1/src/compress/x86.rs", "sha1/src/compress/aarch64.rs"]}
{"id": "C10", "title": "MD5 equals RFC 1321", "statement": "`Md5` returns the RFC 1321 digest of the message (length field modulo 2^64).", "quantifier": "every message, every chunking", "why_tests_cant": "The number of inputs/splits is infinite; a test fixes finitely many.", "anchors": ["md5/src/lib.rs", "md5/src/compress/soft.rs", "md5/src/consts.rs"]}
{"id": "C11", "title": "MD4 equals RFC 1320", "statement": "`Md4` returns the RFC 1320 digest of the message (length field modulo 2^64).", "quantifier": "every message, every chunking", "why_tests_cant": "The number of inputs/splits is infinite; a test fixes finitely many.", "anchors": ["md4/src/lib.rs"]}
{"id": "C12", "title": "MD2 equals RFC 1319", "statement": "`Md2` returns the RFC 1319 digest: padding, whole-message checksum appended, then the 18-round digest pass, although the code interleaves checksum and digest passes block by block.", "quantifier": "every message, every chunking", "why_tests_cant": "The number of inputs/splits is infinite; a test fixes finitely many.", "anchors": ["md2/src/lib.rs", "md2/src/consts.rs"]}
{"id": "C13", "title": "RIPEMD-128/160/256/320 equal their specification", "statement": "`Ripemd128/160/256/320` return the digest defined by the parallel-line RIPEMD specification.", "quantifier": "every message shorter than 2^61 bytes, every chunking", "why_tests_cant": "The number of inputs/splits is infinite; a test fixes finitely many.", "anchors": ["ripemd/src/lib.rs", "ripemd/src/c128.rs", "ripemd/src/c160.rs", "ripemd/src/c256.rs", "ripemd/src/c320.rs"]}
{"id": "C14", "title": "SM3 equals GB/T 32905", "statement": "`Sm3` returns the SM3 digest; the rolling 16-word schedule produces the 68+64 words of the standard.", "quantifier": "every message shorter than 2^61 bytes, every chunking", "why_tests_cant": "The number of inputs/splits is infinite; a test fixes finitely many.", "anchors": ["sm3/src/lib.rs", "sm3/src/compress.rs", "sm3/src/consts.rs"]}
{"id": "C15", "title": "SHA-3 and Keccak fixed-output hashes equal FIPS 202 / Keccak", "statement": "`Sha3_*` and `Keccak*` return the first n bytes of the sponge with bit-level pad10*1 and domain bits 01 (resp. none) over Keccak-p[1600,24].", "quantifier": "every message, every chunking, every rate/output variant", "why_tests_cant": "The number of inputs/splits is infinite; a test fixes finitely many. The one-byte-free case (0x86 merged pad byte) occurs at one residue only.", "anchors": ["sha3/src/macros.rs: impl_sha3", "sha3/src/state.rs", "sha3/src/lib.rs"]}
{"id": "C16", "title": "SHAKE equals FIPS 202", "statement": "`Shake128/256` output streams equal the FIPS 202 SHAKE streams at every length.", "quantifier": "every message, every chunking, every output length", "why_tests_cant": "The number of inputs/splits is infinite; a test fixes finitely many.", "anchors": ["sha3/src/macros.rs: impl_shake", "sha3/src/state.rs"]}
{"id": "C17", "title": "XOF reads are split-independent", "statement": "Reading an XOF through any sequence of `read` calls yields the same bytes as one read of the total length; a shorter read is a prefix of a longer one.", "quantifier": "every XOF reader state, every list of read sizes", "why_tests_cant": "The number of inputs/splits is infinite; a test fixes finitely many.", "anchors": ["sha3/src/macros.rs: read_block", "k12/src/lib.rs: KangarooTwelveReaderCore", "ascon-hash/src/lib.rs: AsconXofReaderCore", "digest::XofReaderCoreWrapper (external)"]}
{"id": "C18", "title": "cSHAKE equals SP 800-185", "statement": "`CShake128/256` with function name N and customization S output SP 800-185 cSHAKE(X, L, N, S).", "quantifier": "every N, S, message, output length", "why_tests_cant": "Whether the encoded prefix fills a whole number of rate blocks depends on |N|,|S|; tests use two short strings.", "anchors": ["sha3/src/macros.rs: impl_cshake new_with_function_name", "sha3/src/lib.rs: left_encode"]}
{"id": "C19", "title": "cSHAKE with empty name and customization is SHAKE", "statement": "`CShake` constructed with empty N and S behaves exactly like `Shake` on every message; any other (N,S) uses the cSHAKE domain bits.", "quantifier": "every message, every output length; every (N,S)", "why_tests_cant": "The number of inputs/splits is infinite; a test fixes finitely many.", "anchors": ["sha3/src/macros.rs: impl_cshake"]}
{"id": "C20", "title": "Length encodings are minimal, correct and injective", "statement": "The SP 800-185 `left_encode` bytes decode back to the value, are minimal, and are prefix-free; the KangarooTwelve length encoding decodes back to the value and is suffix-decodable.", "quantifier": "every 64-bit value", "why_tests_cant": "2^64 values.", "anchors": ["sha3/src/lib.rs: left_encode", "k12/src/lib.rs: length_encode"]}
{"id": "C21", "title": "cSHAKE customization prefixes are collision-free", "statement": "Distinct (N,S) pairs never produce the same absorbed prefix, so distinct customizations are domain separated.", "quantifier": "every two (N,S) pairs with at least one non-empty component each", "why_tests_cant": "Quadratic infinite set of pairs.", "anchors": ["sha3/src/macros.rs: new_with_function_name"]}
{"id": "C22", "title": "TurboSHAKE equals its specification and rejects illegal domain bytes", "statement": "`TurboShake128/256::new(D)` panics exactly when D is outside 0x01..=0x7F, otherwise the output stream is TurboSHAKE(M, D).", "quantifier": "every domain byte, message, chunking, output length", "why_tests_cant": "The number of inputs/splits is infinite; a test fixes finitely many.", "anchors": ["sha3/src/macros.rs: impl_turbo_shake"]}
{"id": "C23", "title": "KangarooTwelve equals the tree-hash specification", "statement": "`KangarooTwelve` with customization C returns KT128(M, C): the streaming chunk logic computes exactly the tree hash over M || C || length_encode(|C|), at every chunk-boundary case.", "quantifier": "every message, customization, chunking, output length", "why_tests_cant": "Boundary cases at multiples of 8192 bytes with every customization length cannot be enumerated.", "anchors": ["k12/src/lib.rs"]}
{"id": "C24", "title": "BLAKE2b/BLAKE2s equal RFC 7693", "statement": "`Blake2b`/`Blake2s` with any output size return the RFC 7693 digest; the 4-lane row/diagonal code performs the 8 G mixings of every round.", "quantifier": "every message (byte counter below its width), every chunking, every output size 1..64 / 1..32", "why_tests_cant": "The number of inputs/splits is infinite; a test fixes finitely many.", "anchors": ["blake2/src/macros.rs", "blake2/src/consts.rs", "blake2/src/simd*"]}
{"id": "C25", "title": "BLAKE2 MAC equals keyed BLAKE2", "statement": "`Blake2bMac`/`Blake2sMac` with key, salt and persona return keyed BLAKE2 of the message with the standard parameter block, also after `reset` and `finalize_reset`.", "quantifier": "every non-empty key of valid length, salt, persona, message, history", "why_tests_cant": "The number of inputs/splits is infinite; a test fixes finitely many.", "anchors": ["blake2/src/macros.rs: blake2_mac_impl"]}
{"id": "C26", "title": "BLAKE2 MAC constructor input validation", "statement": "`new_with_salt_and_personal` accepts exactly keys of 1..=64 (32), salt and persona of at most 16 (8) bytes, returns the documented error otherwise and never panics; an empty key is not silently equivalent to another keyed or unkeyed instance.", "quantifier": "every key, salt and persona length", "why_tests_cant": "Length triples are unbounded; tests never pass oversize inputs.", "anchors": ["blake2/src/macros.rs: new_with_salt_and_personal, KeyInit::new_from_slice, new_with_params"]}
{"id": "C27", "title": "Output-size parameter validation", "statement": "Variable-size cores accept exactly the documented output sizes and report InvalidOutputSize otherwise; an accepted instance always outputs exactly that many bytes.", "quantifier": "every requested output size (all naturals)", "why_tests_cant": "The size is an arbitrary usize.", "anchors": ["sha2/src/core_api.rs: new", "groestl/src/lib.rs", "kupyna/src/*.rs: new", "jh/src/lib.rs: new", "shabal/src/core_api.rs: new", "streebog/src/core_api.rs: new", "blake2/src/macros.rs: new"]}
{"id": "C28", "title": "Padding is injective and block-aligned", "statement": "For each algorithm the padded message is a whole number of blocks, the number of extra blocks is one or two as prescribed, and two different messages never have the same padded form (for messages within the length-field range).", "quantifier": "every pair of messages", "why_tests_cant": "Pairs of messages of all lengths.", "anchors": ["every finalize_*_core", "block_buffer digest_pad (external)"]}
{"id": "C29", "title": "Length-counter range and overflow behaviour", "statement": "No arithmetic overflow occurs in length bookkeeping for messages below the documented maximum, and the encoded length is exactly the bit length modulo the field width.", "quantifier": "every message length and chunking", "why_tests_cant": "Messages of 2^61 bytes cannot be hashed in a test.", "anchors": ["sha2/src/core_api.rs", "sha1/src/lib.rs", "sm3/src/lib.rs", "groestl/src/lib.rs", "kupyna/src/*.rs", "tiger/src/lib.rs", "whirlpool/src/lib.rs", "gost94/src/gost94_core.rs", "streebog/src/core_api.rs"]}
{"id": "C30", "title": "Multi-limb counters implement modular integer addition", "statement": "The multi-word length and checksum registers of Whirlpool (256-bit), GOST94 (256-bit) and Streebog (512-bit) behave as integer addition modulo their width.", "quantifier": "every register value and every increment", "why_tests_cant": "2^256+ register values; carries beyond the second limb need 2^64-byte messages.", "anchors": ["whirlpool/src/lib.rs: update_len", "gost94/src/gost94_core.rs: update_n/update_sigma/adc", "streebog/src/core_api.rs: update_n/update_sigma/adc"]}
{"id": "C31", "title": "sha1-checked equals SHA-1 when nothing is reported", "statement": "With detection off, or when no collision is reported, the digest of `sha1_checked::Sha1` equals SHA-1 of the message for all configurations and chunkings.", "quantifier": "every message shorter than 2^61 bytes, builder configuration, chunking", "why_tests_cant": "The number of inputs/splits is infinite; a test fixes finitely many.", "anchors": ["sha1-checked/src/lib.rs", "sha1-checked/src/compress.rs"]}
{"id": "C32", "title": "A reported SHA-1 collision is genuine", "statement": "When sha1-checked reports a collision attack there really is a second chaining value / block pair, differing by a listed disturbance vector, whose SHA-1 compression gives the same output.", "quantifier": "every message, configuration", "why_tests_cant": "The event has probability 2^-160 per random block; tests use the one public collision.", "anchors": ["sha1-checked/src/compress.rs: recompress_fast_*, compress", "sha1-checked/src/ubc_check.rs"]}
{"id": "C33", "title": "The UBC filter only removes candidates and applies exactly the listed bit conditions", "statement": "Enabling `use_ubc` never adds detections, and a disturbance vector is skipped only if the expanded message violates one of its unavoidable bit conditions.", "quantifier": "every expanded message", "why_tests_cant": "2^2560 expanded messages.", "anchors": ["sha1-checked/src/ubc_check.rs: ubc_check"]}
{"id": "C34", "title": "Whirlpool equals ISO/IEC 10118-3", "statement": "`Whirlpool` returns the Whirlpool digest; the table lookups equal S-box, ShiftColumns and MixRows.", "quantifier": "every message, every chunking", "why_tests_cant": "The number of inputs/splits is infinite; a test fixes finitely many.", "anchors": ["whirlpool/src/lib.rs", "whirlpool/src/compress.rs", "whirlpool/src/consts.rs"]}
{"id": "C35", "title": "Groestl equals its specification", "statement": "`Groestl224..512` return the Groestl digest; table lookups equal SubBytes/ShiftBytes/MixBytes.", "quantifier": "every message within counter range, every chunking", "why_tests_cant": "The number of inputs/splits is infinite; a test fixes finitely many.", "anchors": ["groestl/src/*.rs"]}
{"id": "C36", "title": "Streebog equals GOST R 34.11-2012", "statement": "`Streebog256/512` return the standard digest; the lookup table equals S, P, L.", "quantifier": "every message within counter range, every chunking", "why_tests_cant": "The number of inputs/splits is infinite; a test fixes finitely many.", "anchors": ["streebog/src/core_api.rs", "streebog/src/consts.rs"]}
{"id": "C37", "title": "Kupyna equals DSTU 7564", "statement": "`Kupyna224..512` return the standard digest.", "quantifier": "every message of fewer than 2^64 blocks (the block counter is a u64), every chunking", "why_tests_cant": "The number of inputs/splits is infinite; a test fixes finitely many.", "anchors": ["kupyna/src/*.rs"]}
{"id": "C38", "title": "JH equals its specification", "statement": "`Jh224..512` return the JH digest, with padding as specified.", "quantifier": "every message of fewer than 2^64 bits (the range of the length counter), every chunking", "why_tests_cant": "The number of inputs/splits is infinite; a test fixes finitely many.", "anchors": ["jh/src/*.rs"]}
{"id": "C39", "title": "Tiger and Tiger2 equal their specification", "statement": "`Tiger`/`Tiger2` return the Tiger digest with pad byte 0x01 / 0x80.", "quantifier": "every message, every chunking", "why_tests_cant": "The number of inputs/splits is infinite; a test fixes finitely many.", "anchors": ["tiger/src/lib.rs", "tiger/src/compress.rs"]}
{"id": "C40", "title": "GOST R 34.11-94 equals RFC 5831", "statement": "`Gost94*` return the digest defined by RFC 5831 for each parameter set.", "quantifier": "every message, every chunking, every S-box set", "why_tests_cant": "The number of inputs/splits is infinite; a test fixes finitely many.", "anchors": ["gost94/src/gost94_core.rs", "gost94/src/params.rs"]}
{"id": "C41", "title": "Shabal equals its specification", "statement": "`Shabal192..512` return the Shabal digest.", "quantifier": "every message, every chunking", "why_tests_cant": "The number of inputs/splits is infinite; a test fixes finitely many.", "anchors": ["shabal/src/*.rs"]}
{"id": "C42", "title": "FSB equals its specification and never indexes out of range", "statement": "`Fsb160..512` compute the quasi-cyclic syndrome compression: the byte-wise shift-and-truncate is the bit rotation, index extraction is the bit grouping, and no table access is out of bounds.", "quantifier": "every message, every state, every chunking", "why_tests_cant": "The number of inputs/splits is infinite; a test fixes finitely many. The byte-shift code has several residue-dependent branches.", "anchors": ["fsb/src/macros.rs"]}
{"id": "C43", "title": "Skein equals its specification for every output size", "statement": "`Skein256/512/1024<N>` return the Skein UBI digest of N bytes.", "quantifier": "every message, output size N, chunking", "why_tests_cant": "N ranges over all sizes; tests only use a few.", "anchors": ["skein/src/lib.rs"]}
{"id": "C44", "title": "BelT hash equals STB 34.101.31", "statement": "`BeltHash` returns the standard digest given the block cipher.", "quantifier": "every message, chunking, block cipher", "why_tests_cant": "The number of inputs/splits is infinite; a test fixes finitely many.", "anchors": ["belt-hash/src/lib.rs"]}
{"id": "C45", "title": "Ascon-Hash and Ascon-XOF equal the specification", "statement": "`AsconHash`/`AsconXof` return the Ascon digest/stream given the permutation.", "quantifier": "every message, chunking, output length", "why_tests_cant": "The number of inputs/splits is infinite; a test fixes finitely many.", "anchors": ["ascon-hash/src/lib.rs"]}
{"id": "C46", "title": "Truncated variants are the stated side of the full digest", "statement": "For every variable-size algorithm the N-byte digest is the leftmost (or rightmost, per algorithm) N bytes of the core's full output for that size.", "quantifier": "every message and admissible N", "why_tests_cant": "The number of inputs/splits is infinite; a test fixes finitely many.", "anchors": ["*/src/lib.rs: CtVariableCoreWrapper", "digest (external)"]}
{"id": "C47", "title": "Algorithm identifiers are distinct", "statement": "No two algorithms of the library claim the same object identifier.", "quantifier": "every pair of algorithms carrying an OID", "why_tests_cant": "A pairwise property over the whole catalogue; no test compares OIDs across types.", "anchors": ["*/src/*.rs: AssociatedOid", "sha3/src/lib.rs"]}
{"id": "C48", "title": "Secret material is erased on drop", "statement": "With the zeroize feature, after a hasher or MAC is dropped none of its former memory still holds key- or message-dependent data.", "quantifier": "every state at drop time", "why_tests_cant": "Tests cannot observe freed memory portably.", "anchors": ["blake2/src/macros.rs: Drop impls", "*/src/*.rs: Drop impls"]}
{"id": "C49", "title": "The collision-detection tables follow from the 32 disturbance vectors", "statement": "Every entry of `SHA1_DVS` has the mask bit of its position, and its test step and 80 message differences are those of the local-collision construction on the disturbance vector it names; the saved state at the test step determines the chaining value, so the backwards recompression is exact.", "quantifier": "every table entry; every expanded message and saved state", "why_tests_cant": "2560 table words with no test of their own, and 2^160 states times 2^2560 expanded messages.", "anchors": ["sha1-checked/src/ubc_check.rs: SHA1_DVS", "sha1-checked/src/compress.rs: recompress_fast_58, recompress_fast_65"]}
{"id": "C50", "title": "A digest collision is a compression-function collision", "statement": "For every Merkle-Damgard hasher whose digest is its whole chaining value (SHA-1, SHA-256, SHA-512, MD4, MD5, RIPEMD-128/160/256/320, SM3, Whirlpool, Tiger, Tiger2), two different messages with the same digest yield two different inputs of the code's compression function with the same output, among the calls made while hashing the one and the other.", "quantifier": "every pair of messages within the length-field range", "why_tests_cant": "The number of message pairs is infinite, and no collision of the stronger functions is known to test with.", "anchors": ["*/src/*.rs: finalize_fixed_core", "*/src/*.rs: compress"]}
{"id": "C51", "title": "Sponge domain separation", "statement": "The blocks a Keccak-based hasher absorbs determine both the message and its domain-separation byte, so two functions of the same rate with different bytes never absorb the same input. In particular Keccak, SHA-3, SHAKE and cSHAKE (with any function name and customization string) of one rate never absorb the same input, except that cSHAKE with two empty strings is SHAKE.", "quantifier": "every rate, every pair of messages, every pair of separation bytes in 0x01..0x7f", "why_tests_cant": "Pairs of messages of all lengths and all separation bytes.", "anchors": ["sha3/src/macros.rs: finalize_*", "sha3/src/lib.rs"]}
{"id": "C52", "title": "Inline assembly honours its operand declarations", "statement": "The LoongArch `asm!` blocks change only registers declared as outputs (the stack pointer is restored), their results depend only on declared inputs and memory, and they write no memory beyond the state and the stack area they reserve (MD5, declared `readonly, pure`: none at all).", "quantifier": "every register file, memory, block count", "why_tests_cant": "A clobbered or read undeclared register goes unnoticed until the compiler happens to keep a live value there; no test controls register allocation.", "anchors": ["sha2/src/*/loongarch64_asm.rs", "sha1/src/compress/loongarch64_asm.rs", "md5/src/compress/loongarch64_asm.rs"]}
{"id": "C53", "title": "Digests do not depend on the byte order of the target", "statement": "BLAKE2 digests and MAC tags (which read message words in native order and then convert) and Tiger digests (whose tables are a file reinterpreted in native order) are the standard ones on little- and big-endian targets alike.", "quantifier": "every message, chunking, call sequence, both byte orders", "why_tests_cant": "Continuous integration runs little-endian machines; a missing conversion changes nothing there.", "anchors": ["blake2/src/macros.rs: compress, finalize_with_flag", "blake2/src/simd.rs: from_le, to_le", "blake2/src/as_bytes.rs", "tiger/src/tables.rs"]}
{"id": "C54", "title": "The vector code of BLAKE2 is the lane-wise code", "statement": "With the features simd, simd_opt and simd_asm, `rotate_right_const` (shift-and-xor, byte and half-word shuffle tables, `vext`) rotates every lane and the lane shuffles permute as without the features, so the compression function is unchanged.", "quantifier": "every vector, every rotation amount, every combination of target features", "why_tests_cant": "The features do not build with current compilers, so no test runs this code; 2^256 vectors.", "anchors": ["blake2/src/simd.rs", "blake2/src/simd/simdop.rs", "blake2/src/simd/simd_opt/u32x4.rs", "blake2/src/simd/simd_opt/u64x4.rs"]}
{"id": "C55", "title": "The FSB table is the sequence of parities of the decimals of pi", "statement": "Every bit of `pi.bin` is the parity of the decimal of pi with the same index, and the five FSB types, with the table they ship, compute the hash whose matrix is taken from these decimals (lib.rs carries the note 'Double check this contains all values in the reference implementation').", "quantifier": "all 2179072 bits; every message, state, chunking", "why_tests_cant": "Test vectors touch a small part of the table; a wrong byte changes only messages that select its vector.", "anchors": ["fsb/src/lib.rs: PI", "fsb/src/pi.bin", "fsb/src/macros.rs"]}
{"id": "C56", "title": "Constants are the real numbers the standards take them from", "statement": "The round constants and initial values of SHA-1, SHA-224/256/384/512, BLAKE2, MD4, MD5, RIPEMD and the first of JH are the binary expansions of the square roots, cube roots and sines that the standards name, and MD2's substitution table is the shuffle driven by the digits of pi.", "quantifier": "all entries of all tables", "why_tests_cant": "A table is only compared with another copy of itself; a digit wrong in both copies passes.", "anchors": ["sha2/src/consts.rs", "sha1/src/lib.rs: K", "blake2/src/consts.rs", "md2/src/consts.rs: S", "md4/src/lib.rs: K1, K2", "md5/src/consts.rs: RC", "ripemd/src/c*.rs", "jh/src/consts.rs"]}
{"id": "C57", "title": "A digest and a length determine a resumable state", "statement": "For every Merkle-Damgard hasher whose digest is its whole chaining value, the bytes written from a digest and the message length alone are accepted by `deserialize` as a saved state, and the hasher so restored computes the digests of the padded message followed by anything (length extension).", "quantifier": "every message, every continuation in any chunking", "why_tests_cant": "Infinitely many messages and continuations; no test exports a digest as a state.", "anchors": ["*/src/*.rs: SerializableState", "sha2/src/core_api.rs", "md5/src/lib.rs", "whirlpool/src/lib.rs"]}
{"id": "C58", "title": "BLAKE2 parameters are not confused", "statement": "Two BLAKE2 states, or two MAC objects, are equal only if they were made with the same output length, the same key and the same zero-extended salt and personalisation.", "quantifier": "every pair of accepted parameter sets", "why_tests_cant": "Pairs of keys, salts and personalisations of every length.", "anchors": ["blake2/src/macros.rs: new_with_params, new_with_salt_and_personal"]}
{"id": "C59", "title": "Results do not depend on the width of usize", "statement": "cSHAKE, which encodes `len() * 8` computed in usize, and KangarooTwelve, which counts chunks in a usize, compute the standard functions on targets with 16-, 32- and 64-bit usize, for every input such a target can be given.", "quantifier": "every message, name, customization string, width, with and without overflow checks", "why_tests_cant": "The suite runs on one or two widths with short strings; the limits are 2^29 bytes (cSHAKE) and 2^45 bytes (KangarooTwelve) on 32-bit targets.", "anchors": ["sha3/src/macros.rs: left_encode, new_with_function_name", "k12/src/lib.rs: chain_length"]}
{"id": "C60", "title": "No run-time check of Rust is hit while hashing", "statement": "In a build with overflow checks and debug assertions, the block functions and finalizations never index or slice out of bounds, never fail a `copy_from_slice`, `try_into().unwrap()` or (debug) assertion, never shift by the width or more and never overflow an unchecked operator; and the result is that of the model. For GOST94, which takes its S-box from a public trait, this holds for all S-boxes with four-bit entries, as the shipped ones are.", "quantifier": "every chaining value, every sequence of blocks, every buffer content; KangarooTwelve: every message, customization and chunking", "why_tests_cant": "Chaining values and blocks range over 2^512 and more; tests show the absence of panics only on the blocks they contain, and release builds hide overflows.", "anchors": ["md2/src/lib.rs", "gost94/src/gost94_core.rs", "whirlpool/src/compress.rs", "streebog/src/core_api.rs", "groestl/src/compress512.rs", "groestl/src/compress1024.rs", "kupyna/src/*.rs", "tiger/src/compress.rs", "sm3/src/compress.rs", "shabal/src/core_api.rs", "belt-hash/src/lib.rs", "k12/src/lib.rs", "sha1-checked/src/*.rs", "blake2/src/macros.rs", "ascon-hash/src/lib.rs", "sha3/src/*.rs", "skein/src/lib.rs"]}
{"id": "C61", "title": "Raw pointers and assembly stay inside their objects", "statement": "The code that works through raw pointers (SHA-1/SHA-2 for x86, AArch64, WASM, RISC-V and AVX2; the round constants of portable SHA-2; the block of JH) performs only pointer arithmetic, reads and writes that Rust defines, and the LoongArch assembly loads and stores only in the state, the stack area it reserves, the blocks and the table of constants, wherever these objects are placed in memory.", "quantifier": "every address and alignment, every state, every number of blocks and their contents; LoongArch: every register file and memory", "why_tests_cant": "An access outside an object usually goes unnoticed, and addresses and alignments are not under a test's control; the sanitizers do not run on intrinsics for other processors nor inside assembly.", "anchors": ["sha1/src/compress/*.rs", "sha2/src/sha256/*.rs", "sha2/src/sha512/*.rs", "md5/src/compress/loongarch64_asm.rs", "jh/src/compressor.rs"]}
{"id": "C62", "title": "The inner transformations are permutations", "statement": "Nothing of the state is lost inside a compression: for every block, the compression functions of MD4, MD5, SHA-1, SHA-256, SHA-512, SM3, RIPEMD-256/320, Tiger and Groestl with their feed-forward taken off, those of JH, Shabal, Keccak and Ascon as they are, every round of BLAKE2, and Tiger's key schedule permute the states; for every chaining value the block ciphers inside Whirlpool, Streebog and GOST R 34.11-94 permute the blocks; so do P, Q of Groestl and the two transformations of Kupyna; MD2's compression determines what it read.", "quantifier": "every state, every block, every key; GOST94: every S-box; Tiger: every table", "why_tests_cant": "A bijection on 2^128 to 2^1600 states cannot be sampled; a wrong index or a lost word leaves most outputs different.", "anchors": ["md4/src/lib.rs", "md5/src/compress/soft.rs", "sha1/src/compress/soft.rs", "sha2/src/sha256/soft.rs", "sha2/src/sha512/soft.rs", "sm3/src/compress.rs", "ripemd/src/c256.rs", "ripemd/src/c320.rs", "tiger/src/compress.rs", "whirlpool/src/compress.rs", "streebog/src/core_api.rs", "groestl/src/compress512.rs", "groestl/src/compress1024.rs", "kupyna/src/utils.rs", "jh/src/compressor.rs", "shabal/src/core_api.rs", "sha3/src/state.rs", "ascon-hash/src/lib.rs", "blake2/src/macros.rs", "gost94/src/gost94_core.rs", "md2/src/lib.rs"]}
{"id": "C63", "title": "A collision of the other chained and tree hashes is one of their inner function", "statement": "Two different messages with the same digest yield two different arguments of the inner function with the same result, among the calls made while hashing the one and the other: for GOST R 34.11-94 (checksum), Streebog-512 (counter and checksum), BLAKE2b-512 and BLAKE2s-256 (counter and last-block flag), Skein with full output (tweak), BelT-hash (two-output compression), and KangarooTwelve (tree: two nodes of TurboSHAKE128, also for different customization strings). For MD2, which has no length field, or a call that returns to the initial value; for FSB, or a collision of the final truncated Whirlpool.", "quantifier": "every pair of messages within the length limits; GOST94: every S-box and initial value; Skein and BelT: every cipher; KangarooTwelve: every output length and customization", "why_tests_cant": "No test has a collision; that padding, counter, flag and length leave no other way to one is a statement about all pairs of messages.", "anchors": ["gost94/src/gost94_core.rs", "streebog/src/core_api.rs", "blake2/src/macros.rs", "skein/src/lib.rs", "belt-hash/src/lib.rs", "md2/src/lib.rs", "fsb/src/macros.rs", "k12/src/lib.rs"]}
{"id": "C64", "title": "Which block functions show the data through memory accesses and branches", "statement": "The indices of array accesses, bounds of slices and outcomes of branches and run-time checks while hashing depend on lengths only for SM3, SHA-2 (portable code and the x86, AVX2, ARM, wasm, RISC-V and LoongArch code), the x86, ARM and LoongArch code of SHA-1, the LoongArch code of MD5, JH, Shabal, BLAKE2, SHA-3, Skein, Ascon and BelT (around their external permutation or cipher); for MD2, Tiger, Whirlpool, Streebog, Groestl, Kupyna, GOST R 34.11-94 and FSB, which look up tables at secret indices, the observations determine the message blocks.", "quantifier": "every pair of chaining values, of block sequences of the same length and of buffers filled to the same position; second group: every chaining value and every pair of block sequences of the same length", "why_tests_cant": "Absence of a dependence is a statement about all pairs of inputs; timing tests are statistical and see a few addresses.", "anchors": ["sm3/src/compress.rs", "sha2/src/sha256/soft.rs", "sha2/src/sha512/soft.rs", "jh/src/compressor.rs", "shabal/src/core_api.rs", "blake2/src/macros.rs", "sha3/src/*.rs", "skein/src/lib.rs", "ascon-hash/src/lib.rs", "belt-hash/src/lib.rs", "md2/src/lib.rs", "tiger/src/compress.rs", "whirlpool/src/compress.rs", "streebog/src/core_api.rs", "groestl/src/compress512.rs", "groestl/src/compress1024.rs", "kupyna/src/utils.rs", "gost94/src/gost94_core.rs", "fsb/src/macros.rs", "sha1/src/compress/*.rs", "sha2/src/sha256/*.rs", "sha2/src/sha512/*.rs", "md5/src/compress/loongarch64_asm.rs"]}
{"id": "C65", "title": "Names identify the hash function, and printing shows nothing of the state", "statement": "Two hasher types reporting the same `AlgorithmName` are the same type with the same output size, and the `Debug` text of a hasher, core, reader or MAC is determined by its type.", "quantifier": "every type, every output size of the generic types, every state", "why_tests_cant": "The suite prints no hasher; output sizes and states are unbounded.", "anchors": ["*/src/*.rs: write_alg_name", "*/src/*.rs: fmt::Debug", "skein/src/lib.rs", "ascon-hash/src/lib.rs", "blake2/src/macros.rs", "gost94/src/params.rs"]}
{"id": "C66", "title": "A collision of a hash that outputs less than its state is one of its inner function or of its output function", "statement": "SHA-2 of all sizes, Groestl, Kupyna, JH, Shabal, Streebog, BLAKE2 and Skein of any output size: the digest is an output function of the last chaining value, and two different messages with the same digest yield a collision among the calls of the compression function, or two different last chaining values with the same output. Sponges (SHA-3, Keccak, SHAKE, cSHAKE, TurboSHAKE, Ascon), whose step collides trivially: two different block sequences after which the part of the state no block touches is the same, or two different last states with the same output; also for different separation bytes, names and customization strings; for Keccak256Full always the former.", "quantifier": "every pair of messages within the length limits, every output size the code accepts, every number of bytes read; Skein: every cipher; Ascon: every injective permutation", "why_tests_cant": "No test has a collision; that padding, counters and separation bytes leave no third way to one is a statement about all pairs of messages.", "anchors": ["sha2/src/core_api.rs", "groestl/src/lib.rs", "kupyna/src/short.rs", "kupyna/src/long.rs", "jh/src/lib.rs", "shabal/src/core_api.rs", "streebog/src/core_api.rs", "blake2/src/macros.rs", "skein/src/lib.rs", "sha3/src/macros.rs", "sha3/src/state.rs", "ascon-hash/src/lib.rs"]}
{"id": "C67", "title": "Whole hashers in builds with overflow checks: the exact condition for a panic, the standard's digest otherwise", "statement": "A hasher created, fed any sequence of chunks and finalized in a build with overflow checks and debug assertions panics under the following conditions only, and returns the digest of the standard otherwise. Length of the message: 2^61 bytes or more for SHA-1, SHA-224/256, SM3, RIPEMD, Tiger, FSB, and sha1-checked without detection; 2^64 for BLAKE2b, BLAKE2s, Skein and sha1-checked with detection; 2^125 for SHA-384/512 and BelT (here up to 2^133); the range of the block count for Groestl (2^64 - 1 blocks less 8 bytes) and Kupyna (2^64 blocks). One slice of 2^55 blocks for Whirlpool. An output size the type does not accept; a TurboSHAKE domain byte outside 1..=0x7f; a cSHAKE name or customization of 2^61 bytes. MD2, MD4, MD5, Streebog, Shabal, JH, GOST R 34.11-94, SHA-3, SHAKE and Ascon never panic. KangarooTwelve panics exactly when message, customization string and its encoded length together exceed 2^77 bytes, 2^64 chunks. Readers of extendable output never panic, and what they write to the caller's buffers does not depend on what the buffers held. (The digest is claimed below 2^64 bits for JH and 2^448 bits for Streebog, and for cSHAKE unless the encoded prefix fills its last block.)", "quantifier": "every sequence of chunks, including those that exceed the limits; every output size; GOST94: slices below 2^64 bytes, the four parameter sets; Skein: for sizes that are not multiples of 8 the result is that of C43, whole words of the standard's digest and zeros; Ascon: every permutation; FSB: every table", "why_tests_cant": "The limits are 2^61 bytes and more, and a test that hashes a few messages shows the absence of a panic only on these.", "anchors": ["*/src/lib.rs: update_blocks, finalize_fixed_core", "sha2/src/core_api.rs", "groestl/src/lib.rs", "kupyna/src/short.rs", "kupyna/src/long.rs", "whirlpool/src/lib.rs", "streebog/src/core_api.rs", "shabal/src/core_api.rs", "gost94/src/gost94_core.rs", "belt-hash/src/lib.rs", "blake2/src/macros.rs", "skein/src/lib.rs", "sha3/src/macros.rs", "ascon-hash/src/lib.rs", "fsb/src/macros.rs", "k12/src/lib.rs", "sha1-checked/src/lib.rs"]}
{"id": "C68", "title": "Hashers restored from arbitrary saved states in builds with overflow checks: the exact condition for a panic", "statement": "Any bytes that `deserialize` accepts, any further chunks, then finalization: there is a panic exactly when the length the state claims (its block counter times the block size, and the buffered bytes) together with the further bytes reaches the limit of a fresh hasher (SHA-1, SHA-2, SM3, RIPEMD, Tiger, Groestl, Kupyna, FSB); never for MD2, MD4, MD5, Streebog, Shabal, Keccak and SHA-3 and GOST R 34.11-94; for Whirlpool exactly when one slice has 2^55 blocks. Otherwise the result is that of the build without checks, and a state the library saved continues as if it had never been interrupted, also in when it panics.", "quantifier": "every byte string accepted as a saved state, every sequence of further chunks, every output size; GOST94: every S-box with four-bit entries, slices below 2^64 bytes; FSB: every table", "why_tests_cant": "Saved states range over 2^320 and more values, most of which no run of the library reaches; the suite restores one state per hasher.", "anchors": ["*/src/lib.rs: deserialize, update_blocks, finalize_fixed_core", "sha2/src/core_api.rs", "groestl/src/lib.rs", "kupyna/src/short.rs", "kupyna/src/long.rs", "whirlpool/src/lib.rs", "streebog/src/core_api.rs", "shabal/src/core_api.rs", "gost94/src/gost94_core.rs", "sha3/src/macros.rs", "fsb/src/macros.rs"]}
{"id": "C69", "title": "Saving and restoring a hasher hits no run-time check", "statement": "In a build with overflow checks, `serialize` never panics, whatever the hasher has been through (updates, resets, states restored from forged bytes), and `deserialize` of any bytes of the type's size is either the error or a hasher, never a panic; both equal the models. With the property before: restoring, updating and finalizing gives an error, a panic or a digest under conditions on the bytes that are known exactly.", "quantifier": "every byte string of the serialized size, every sequence of updates, resets and restorations, every output size", "why_tests_cant": "Serialized states range over 2^800 and more values; the suite saves and restores one per hasher.", "anchors": ["*/src/lib.rs: SerializableState", "sha2/src/core_api.rs", "groestl/src/lib.rs", "kupyna/src/short.rs", "kupyna/src/long.rs", "kupyna/src/utils.rs", "whirlpool/src/lib.rs", "streebog/src/core_api.rs", "shabal/src/core_api.rs", "gost94/src/gost94_core.rs", "sha3/src/macros.rs", "fsb/src/macros.rs", "fsb/src/lib.rs", "ripemd/src/lib.rs"]}
{"id": "C70", "title": "BLAKE2 MACs in builds with overflow checks: the exact condition for an error and for a panic, the keyed hash otherwise", "statement": "A BLAKE2b or BLAKE2s MAC object built by either constructor and driven by any sequence of updates, resets, finalizations with reset and finalizations of clones: the outcome of the constructor (object, error, panic) is a function of the lengths of key, salt and personalisation; afterwards the first call that panics is the first `update` after which more than 2^64 bytes have been absorbed since the last reset (the key block included), or the first finalization at 2^64 bytes or more; all tags before and all tags of histories without such a call are the keyed BLAKE2 of the messages. In particular no history with less than 2^64 - 128 bytes panics.", "quantifier": "every key, salt, personalisation and output size, every history of calls, including those that exceed the limits", "why_tests_cant": "The limit is 2^64 bytes, and histories are unbounded.", "anchors": ["blake2/src/macros.rs: new_with_salt_and_personal, new_from_slice, update, finalize_into, finalize_into_reset, reset", "blake2/src/lib.rs"]}
{"id": "C71", "title": "Whole programs on several hashers in builds with overflow checks: the exact condition for a panic, the model's digests otherwise", "statement": "A program creates, updates, clones, resets, finalizes (with and without reset), saves and restores any number of hashers of one algorithm in any order, and starts with arbitrary stored byte strings of the serialized size, forged ones included. For SHA-1, SHA-2, SM3, RIPEMD, Tiger, Groestl, Kupyna and FSB it panics exactly when some `update` takes the length its hasher claims to 2^w blocks (w the width of the counter) or some finalization happens at or above the limit of a fresh hasher, where claimed lengths are tracked by a small specification (new and reset: 0, update: plus the chunk, clone, save and restore: copied, forged bytes: as they say). For MD2, MD4, MD5, Streebog, Shabal, Keccak, SHA-3 it never panics, nor for GOST R 34.11-94 and Whirlpool if chunks are below 2^64 and 2^61 bytes. Without a panic it emits the digests the program emits without overflow checks; if nothing was stored at the start these are the digests of the messages logged for each hasher. For the hashers that cannot be saved, in programs without saving: BLAKE2 and Skein panic exactly when an `update` leads to more than 2^64 bytes or a finalization happens at 2^64 bytes or more, BelT exactly when a finalization happens at a length that is at least 2^125 modulo 2^133, sha1-checked exactly when an `update` leads to 2^64 blocks or a finalization happens at 2^61 bytes (2^64 with collision detection) or more; KangarooTwelve exactly when an `update` leads to 2^77 + 128 bytes or a finalization happens where message, customization string and its encoded length exceed 2^77 bytes; JH, Ascon-Hash, Ascon-XOF, SHAKE, cSHAKE and TurboSHAKE never panic once constructed.", "quantifier": "every program over these calls, every choice of stored byte strings of the right size, every output size; FSB: every table; GOST94: every S-box with four-bit entries", "why_tests_cant": "Programs are unbounded, the limits are 2^61 bytes and more, and forged states range over 2^320 and more values.", "anchors": ["*/src/lib.rs: update_blocks, finalize_fixed_core, reset, serialize, deserialize", "sha1/src/lib.rs", "sha2/src/core_api.rs", "groestl/src/lib.rs", "kupyna/src/short.rs", "kupyna/src/long.rs", "whirlpool/src/lib.rs", "streebog/src/core_api.rs", "shabal/src/core_api.rs", "gost94/src/gost94_core.rs", "sha3/src/macros.rs", "fsb/src/macros.rs", "md2/src/lib.rs", "blake2/src/macros.rs", "skein/src/lib.rs", "belt-hash/src/lib.rs", "jh/src/lib.rs", "ascon-hash/src/lib.rs", "sha1-checked/src/lib.rs", "k12/src/lib.rs"]}
{"id": "C72", "title": "Programs on hashers sized at run time, in builds with overflow checks: errors, panics and digests exactly as specified", "statement": "Blake2bVar, Blake2sVar, GroestlShortVar, GroestlLongVar, KupynaShortVar and KupynaLongVar: a program creates hashers with any requested sizes, updates, clones, finalizes into buffers of any length, and for BLAKE2 also resets and finalizes with reset. What it sees is that of a small specification in which a hasher is a size and a message: `new` fails exactly for the sizes that do not exist, finalization fails exactly for buffers of another length than the size (the hasher is then as before, or gone if the call consumes it), and otherwise gives the standard's digest, with that many bytes, of what the hasher was given since it was created or reset. The program panics exactly when an `update` leads past 2^64 bytes (BLAKE2) or to 2^64 blocks (Groestl, Kupyna), or a finalization with a buffer of the right length meets a message of 2^64 bytes (BLAKE2), of 2^64 - 1 blocks less 8 bytes (Groestl), or more.", "quantifier": "every program over these calls on any number of hashers, every size, buffer length and message, including those beyond the limits", "why_tests_cant": "Programs and messages are unbounded; the suite creates a few sizes and never offers a buffer of the wrong length to a reset hasher.", "anchors": ["blake2/src/lib.rs: Blake2bVar, Blake2sVar", "blake2/src/macros.rs: VariableOutputCore, Reset", "groestl/src/lib.rs: GroestlShortVar, GroestlLongVar", "kupyna/src/lib.rs: KupynaShortVar, KupynaLongVar", "kupyna/src/short.rs", "kupyna/src/long.rs"]}
{"id": "C73", "title": "What the collision-detecting SHA-1 shows through memory accesses and branches", "statement": "sha1-checked: two runs of the block function with the same configuration on as many blocks that show the same indices, slice bounds and branch outcomes judge every block alike: they try the same vectors up to the first that explains the block, with the same outcome, so both find an attack or neither does. Without the bit-condition filter that is exactly what is shown, so messages in which no attack is found cannot be told apart. With the filter (the default) a block in which no attack is found shows, for each of the 32 vectors, whether all its conditions on the bits of the expanded message hold: the default configuration is not constant-time.", "quantifier": "all configurations, all chaining values, all lists of blocks, all leftovers in the detection state", "why_tests_cant": "Timing and branch behaviour is not tested at all; the statement compares all pairs of runs.", "anchors": ["sha1-checked/src/compress.rs: compress, compression_states, recompression_step", "sha1-checked/src/ubc_check.rs: ubc_check, SHA1_DVS"]}
{"id": "C74", "title": "What a whole hash computation shows through memory accesses and branches: the lengths, or everything", "statement": "`new`, any number of updates and `finalize`, with the buffering, the block functions, the checks and the padding. MD4, MD5, RIPEMD, SHA-1, SHA-2, SM3, JH, Shabal, BelT, BLAKE2, Skein, SHA-3, Keccak, SHAKE and Ascon: two uses with the same lengths of pieces show the same indices, slice bounds, addresses and branch outcomes, and both return or both panic; and of two uses with as many pieces that return and show the same, the pieces have the same lengths. So the lengths, and nothing else, are shown. MD2, Tiger, Whirlpool, Groestl, Kupyna, GOST R 34.11-94, Streebog and FSB: two uses with as many pieces, within the lengths the algorithm allows, that show the same are uses on the same pieces, byte by byte: the message can be read off, also its last part that is only seen padded. Forgetting what is shown gives the hashers with run-time checks.", "quantifier": "every list of pieces, every output size, every starting core (BLAKE2), the four S-boxes of GOST R 34.11-94, every table of the size of pi.bin (FSB)", "why_tests_cant": "The statement compares all pairs of runs; nothing in the suite looks at memory accesses.", "anchors": ["md2/src/lib.rs", "md4/src/lib.rs", "md5/src/lib.rs", "ripemd/src/lib.rs", "sha1/src/lib.rs", "sha2/src/core_api.rs", "sm3/src/lib.rs", "jh/src/lib.rs", "shabal/src/core_api.rs", "belt-hash/src/lib.rs", "blake2/src/macros.rs", "skein/src/lib.rs", "sha3/src/macros.rs", "ascon-hash/src/lib.rs", "tiger/src/lib.rs", "whirlpool/src/lib.rs", "groestl/src/lib.rs", "kupyna/src/short.rs", "kupyna/src/long.rs", "gost94/src/gost94_core.rs", "streebog/src/core_api.rs", "fsb/src/macros.rs"]}
{"id": "C75", "title": "What an extendable-output function shows through memory accesses and branches, up to the bytes read", "statement": "SHAKE, TurboSHAKE, cSHAKE, Ascon-XOF128 and KangarooTwelve, from the constructor through any number of updates and `finalize_xof` to any number of reads: two uses with function names and customization strings of the same lengths, pieces of the same lengths and buffers of the same lengths show the same indices, slice bounds and branch outcomes, and both return or both panic. In KangarooTwelve this includes the tree: chunks, chaining values, length encodings and the TurboSHAKE hashers inside. Of two uses with the same strings and as many pieces that return and show the same before the first read, the pieces have the same lengths. Forgetting what is shown gives the functions with run-time checks; for KangarooTwelve what is read is the output of the specification, or a panic, exactly beyond 2^77 bytes.", "quantifier": "every name, customization string, list of pieces and list of buffers, every rate and domain separation byte, every permutation of 25 words (KangarooTwelve: Keccak-p with 12 rounds)", "why_tests_cant": "The statement compares all pairs of runs; nothing in the suite looks at memory accesses.", "anchors": ["sha3/src/macros.rs", "sha3/src/lib.rs: left_encode", "sha3/src/state.rs", "ascon-hash/src/lib.rs", "k12/src/lib.rs"]}
{"id": "C76", "title": "What BLAKE2 MACs show through memory accesses and branches: lengths, nothing of the key, the message or the tag", "statement": "Blake2bMac and Blake2sMac, made by `new_with_salt_and_personal` or `new_from_slice` and then used by any sequence of updates, resets and finalizations (with reset, or of a clone): two uses in which the keys, salts, personalisations and inputs have the same lengths and the same functions are called show the same indices, slice bounds and branch outcomes and have the same outcome: panic, error, or as many tags of the same lengths. Of two uses that return tags, with salts and personalisations of the same lengths and the same functions called, that show the same, both have a key or neither, the keys have the same length and so have all inputs. Forgetting what is shown gives the MACs with run-time checks of C70.", "quantifier": "every key, salt, personalisation, output size and sequence of calls, those that panic or return an error included", "why_tests_cant": "The statement compares all pairs of uses; nothing in the suite looks at memory accesses, and keys are secrets that a side channel would betray silently.", "anchors": ["blake2/src/macros.rs: new_with_params, compress, update_blocks, finalize_variable_core, new_with_salt_and_personal, new_from_slice, update, finalize_into, reset, finalize_into_reset"]}
{"id": "C77", "title": "What a whole use of sha1-checked shows through memory accesses and branches", "statement": "A hasher made by any builder, any number of updates and `try_finalize`, with the buffering, the block function, the padding and the output. With detection off the lengths of the pieces are shown and nothing else. With detection but without the bit-condition filter, two uses on pieces of the same lengths that report no attack show the same indices, slice bounds and branch outcomes. With any configuration, two uses with as many pieces that return and show the same have pieces of the same lengths, and both report an attack or neither does; with detection every whole block is judged alike in both (the same vectors are tried with the same outcome, as in C73). With the default configuration there are messages of the same length, neither of which is reported, that show different things.", "quantifier": "every builder, every list of pieces", "why_tests_cant": "The statement compares all pairs of uses; nothing in the suite looks at memory accesses.", "anchors": ["sha1-checked/src/lib.rs: finalize_inner, try_finalize, update", "sha1-checked/src/compress.rs: compress, finalize", "sha1-checked/src/ubc_check.rs: ubc_check"]}
