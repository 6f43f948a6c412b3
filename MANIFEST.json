{
 "claims": [
  {
   "property": "C01",
   "status": "proved",
   "theorems": [
    "Hashes.C01_library",
    "Hashes.C01_eager_chunking",
    "Hashes.C01_digest_of_chunks"
   ],
   "note": "Generic over every core obeying the block-fold laws; C01_library instantiates it for every hasher type of the library (inductive catalogue Library), from any well-formed state."
  },
  {
   "property": "C02",
   "status": "proved",
   "theorems": [
    "Hashes.C02_library",
    "Hashes.C02_which",
    "Hashes.C02_lazy_chunking"
   ],
   "note": "Generic plus C02_library for every lazy hasher (BLAKE2b/s of every size, Skein); C02_which names them."
  },
  {
   "property": "C03",
   "status": "proved",
   "theorems": [
    "Hashes.C03_library",
    "Hashes.C03_history",
    "Hashes.C03_history_noser"
   ],
   "note": "Generic plus C03_library for every hasher type; saves and loads included for the serializable ones."
  },
  {
   "property": "C04",
   "status": "proved",
   "theorems": [
    "Hashes.C04_library",
    "Hashes.C04_save_load"
   ],
   "note": "Generic plus C04_library for every type implementing SerializableState."
  },
  {
   "property": "C05",
   "status": "proved",
   "theorems": [
    "Hashes.C05_library",
    "Hashes.C05_other_size",
    "Hashes.C05_load_canonical",
    "Hashes.C05_load_injective"
   ],
   "note": "Generic plus C05_library for every type implementing SerializableState."
  },
  {
   "property": "C06",
   "status": "proved",
   "theorems": [
    "Hashes.C06_sha256",
    "Hashes.C06_sha224"
   ],
   "note": "portable (soft) backend; every chunking, every length (length field modulo 2^64)"
  },
  {
   "property": "C07",
   "status": "proved",
   "theorems": [
    "Hashes.C07_sha512",
    "Hashes.C07_sha384",
    "Hashes.C07_sha512_256",
    "Hashes.C07_sha512_224"
   ],
   "note": "portable backend; every chunking, every length (length field modulo 2^128); SHA-512/t initial values derived by the standard's generator"
  },
  {
   "property": "C08",
   "status": "proved",
   "theorems": [
    "Hashes.C08_sha1"
   ],
   "note": "portable backend; every chunking and length"
  },
  {
   "property": "C09",
   "status": "proved",
   "theorems": [
    "Hashes.Backends.C09_sha256",
    "Hashes.Backends.C09_sha512",
    "Hashes.Backends.C09_sha1",
    "Hashes.Backends.C09_md5",
    "Hashes.Backends.C09_sha256_returns",
    "Hashes.Backends.C09_sha512_returns",
    "Hashes.Backends.C09_sha1_returns",
    "Hashes.Backends.C09_md5_returns",
    "Hashes.Backends.C09_sha256_digest",
    "Hashes.Backends.C09_sha224_digest",
    "Hashes.Backends.C09_sha512_digest",
    "Hashes.Backends.C09_sha384_digest",
    "Hashes.Backends.C09_sha512_256_digest",
    "Hashes.Backends.C09_sha512_224_digest",
    "Hashes.Backends.C09_sha1_digest",
    "Hashes.Backends.C09_md5_digest"
   ],
   "note": "Every backend selected by any build and CPU, given as transcriptions over instruction semantics (Isa/*): result of compress on any state and whole blocks equals FIPS 180-4 / RFC 1321, every call returns, and digests built on it equal the standards. Instruction semantics are trusted transcriptions of the vendor manuals."
  },
  {
   "property": "C10",
   "status": "proved",
   "theorems": [
    "Hashes.C10_md5"
   ],
   "note": "portable backend; constants derived from the sine series"
  },
  {
   "property": "C11",
   "status": "proved",
   "theorems": [
    "Hashes.C11_md4"
   ],
   "note": "every chunking and length"
  },
  {
   "property": "C12",
   "status": "proved",
   "theorems": [
    "Hashes.C12_md2"
   ],
   "note": "every chunking and length; S-table is the RFC's literal table"
  },
  {
   "property": "C13",
   "status": "proved",
   "theorems": [
    "Hashes.C13_ripemd160",
    "Hashes.C13_ripemd128",
    "Hashes.C13_ripemd256",
    "Hashes.C13_ripemd320"
   ],
   "note": "all four sizes; every chunking and length; word order and shifts from the designers' permutations"
  },
  {
   "property": "C14",
   "status": "proved",
   "theorems": [
    "Hashes.C14_sm3"
   ],
   "note": "every chunking and length; ring buffer message expansion and unrolled register roles proved against GB/T 32905"
  },
  {
   "property": "C15",
   "status": "proved",
   "theorems": [
    "Hashes.C15_sha3",
    "Hashes.C15_keccak",
    "Hashes.C15_keccak256Full"
   ],
   "note": "All eight fixed-output instances and Keccak256Full, any chunking."
  },
  {
   "property": "C16",
   "status": "proved",
   "theorems": [
    "Hashes.C16_shake"
   ],
   "note": "Any chunking, any sequence of reads."
  },
  {
   "property": "C17",
   "status": "proved",
   "theorems": [
    "Hashes.C17_k12",
    "Hashes.C17_reads",
    "Hashes.C17_prefix",
    "Hashes.C17_sha3"
   ],
   "note": "Generic over lawful reader cores; instantiated for SHAKE/cSHAKE/TurboSHAKE and KangarooTwelve (Ascon: see C45)."
  },
  {
   "property": "C18",
   "status": "partial",
   "theorems": [
    "Hashes.C18_cshake_partial",
    "Hashes.C18_cshake_actual",
    "Hashes.C18_violated"
   ],
   "note": "The full statement is false of the code: when the N/S prefix fills a whole number of rate blocks an extra zero block is absorbed (C18_violated gives a witness). C18_cshake_partial covers every other (N,S); C18_cshake_actual states what the code computes in all cases."
  },
  {
   "property": "C19",
   "status": "proved",
   "theorems": [
    "Hashes.C19_empty",
    "Hashes.C19_padding"
   ],
   "note": ""
  },
  {
   "property": "C20",
   "status": "proved",
   "theorems": [
    "Hashes.C20_leftEncode",
    "Hashes.C20_leftEncode_prefixFree",
    "Hashes.C20_lengthEncode",
    "Hashes.C20_lengthEncode_suffixFree"
   ],
   "note": "left_encode for every u64 and every scratch content; length_encode for every value below 2^64."
  },
  {
   "property": "C21",
   "status": "proved",
   "theorems": [
    "Hashes.C21_prefix_injective"
   ],
   "note": ""
  },
  {
   "property": "C22",
   "status": "proved",
   "theorems": [
    "Hashes.C22_new",
    "Hashes.C22_turboShake"
   ],
   "note": ""
  },
  {
   "property": "C23",
   "status": "proved",
   "theorems": [
    "Hashes.C23_k12"
   ],
   "note": ""
  },
  {
   "property": "C24",
   "status": "proved",
   "theorems": [
    "Hashes.C24_blake2b",
    "Hashes.C24_blake2s",
    "Hashes.C24_round",
    "Hashes.C24_customized",
    "Hashes.C24_iv"
   ],
   "note": "Blake2b bounded by the width of the code's u64 byte counter (2^64 bytes), as quantified; Blake2s unbounded. Includes new_customized."
  },
  {
   "property": "C25",
   "status": "proved",
   "theorems": [
    "Hashes.C25_blake2bMac",
    "Hashes.C25_blake2sMac",
    "Hashes.C25_newFromSlice"
   ],
   "note": "new_with_salt_and_personal (keyed and unkeyed) and new_from_slice with a non-empty key; any sequence of update/reset/finalize_reset/clone+finalize."
  },
  {
   "property": "C26",
   "status": "partial",
   "theorems": [
    "Hashes.C26_decision_partial",
    "Hashes.C26_violated",
    "Hashes.C26_emptyKey_violated"
   ],
   "note": "Full claim is false: keys of 65..128 (33..64) bytes and salt/persona of 17..32 (9..16) bytes pass the documented length check and then panic in new_with_params; new_from_slice accepts an empty key and yields an unkeyed hash. C26_violated, C26_emptyKey_violated give the negation; C26_decision_partial is the exact accept/Err table."
  },
  {
   "property": "C27",
   "status": "proved",
   "theorems": [
    "Hashes.C27_sizes",
    "Hashes.C27_length",
    "Hashes.C27_rt",
    "Hashes.C27_standard",
    "Hashes.C27_nonstandard"
   ],
   "note": "Accepted sizes of all eleven variable-output cores through both wrappers, output length exactly N, InvalidBufferSize for any other buffer (external wrapper behaviour transcribed in Model/VarCore). C27_nonstandard: the constructors also accept sizes outside the algorithms' definitions (0 bytes for BLAKE2/Groestl/Kupyna short; <=32 bytes for Groestl long; 32 bytes for Kupyna long); the crates document no list of sizes."
  },
  {
   "property": "C28",
   "status": "proved",
   "theorems": [
    "Hashes.C28_blocks",
    "Hashes.C28_injective",
    "Hashes.C28_prefix",
    "Hashes.C28_sponge_blocks",
    "Hashes.C28_sponge_injective",
    "Hashes.C28_cshake",
    "Hashes.C28_belt",
    "Hashes.C28_skein",
    "Hashes.C28_gost94"
   ],
   "note": "Paddings of the specifications to which the digests are proved equal; no length restriction is needed for injectivity. Zero-padded algorithms (BelT, Skein, GOST 94) are injective together with the separately absorbed length; cSHAKE prefix encoding is injective below 2^2040 bits."
  },
  {
   "property": "C29",
   "status": "partial",
   "theorems": [
    "Hashes.C29_exact",
    "Hashes.C29_wrapping",
    "Hashes.C29_belt",
    "Hashes.C29_whirlpool_partial",
    "Hashes.C29_whirlpool_violated",
    "Hashes.C29_agree",
    "Hashes.C29_standard",
    "Hashes.C29_narrow_violated"
   ],
   "note": "Length bookkeeping of every hasher with a counter, with overflow checks on (panic = none). C29_exact gives the exact limit and encoded value for sha2, sha1, sm3, ripemd, tiger, fsb, groestl, kupyna, blake2, skein, sha1-checked, for every chunking; C29_wrapping for md4/md5/jh; C29_belt for belt-hash; C29_agree links each to the release-profile core of the digest theorems; C29_standard compares with the limits of the standards. Violated: C29_narrow_violated (BLAKE2b, Skein, Kupyna, JH counters narrower than their specification), C29_whirlpool_violated (one update of 2^61 bytes panics, the same bytes in two pieces do not); C29_whirlpool_partial is the bounded form. gost94 and streebog have no checked operation that can overflow; their lengths are covered by the digest theorems C40 and C36 and by C30."
  },
  {
   "property": "C30",
   "status": "partial",
   "theorems": [
    "Hashes.C30_gost94_n",
    "Hashes.C30_gost94_sigma",
    "Hashes.C30_gost94_slice",
    "Hashes.C30_streebog_sigma",
    "Hashes.C30_streebog_n_partial",
    "Hashes.C30_streebog_n_violated",
    "Hashes.C30_whirlpool",
    "Hashes.C30_whirlpool_slice"
   ],
   "note": "Proved for Whirlpool, GOST94 and Streebog's checksum. Violated for Streebog's length register: update_n never carries into limb 7 (C30_streebog_n_violated); C30_streebog_n_partial proves exactness below 2^448."
  },
  {
   "property": "C31",
   "status": "proved",
   "theorems": [
    "Hashes.C31_functional",
    "Hashes.C31_unreported",
    "Hashes.C31_unsafe",
    "Hashes.C31_off",
    "Hashes.C31_history"
   ],
   "note": "Full functional specification of try_finalize for every builder configuration and chunking, with SHA-1 when detection is off, when nothing is reported, and whenever safe_hash is off. No length bound (length field mod 2^64 as in SHA-1)."
  },
  {
   "property": "C32",
   "status": "proved",
   "theorems": [
    "Hashes.C32_reported_iff",
    "Hashes.C32_sibling_expansion",
    "Hashes.C32_sibling_ne",
    "Hashes.C32_genuine",
    "Hashes.C32_complete"
   ],
   "note": "Reported iff some padded block is explained by a listed vector at the plain SHA-1 chaining value; soundness spells out the second block and chaining value, completeness holds with the filter off."
  },
  {
   "property": "C33",
   "status": "proved",
   "theorems": [
    "Hashes.C33_mask",
    "Hashes.C33_filter",
    "Hashes.C33_symmetric"
   ],
   "note": "Bit k of the mask is exactly the conjunction of the conditions listed for vector k (the list is formatted from ubc_check.rs; independently each condition is proved to relate two bits where the vector has a difference, so the filter is the same for both blocks of an attack); enabling the filter never adds a report."
  },
  {
   "property": "C34",
   "status": "proved",
   "theorems": [
    "Hashes.C34_whirlpool",
    "Hashes.C34_tables"
   ],
   "note": "Whirlpool equal to the ISO definition for all messages; lookup tables equal to S-box and matrix."
  },
  {
   "property": "C35",
   "status": "proved",
   "theorems": [
    "Hashes.C35_short",
    "Hashes.C35_long",
    "Hashes.C35_tables"
   ],
   "note": "Groestl short and long equal to the specification for every admissible output size and every message; lookup tables equal to AES S-box times circulant."
  },
  {
   "property": "C36",
   "status": "proved",
   "theorems": [
    "Hashes.C36_streebog",
    "Hashes.C36_tables",
    "Hashes.C36_sbox"
   ],
   "note": "For messages of bit length below 2^448 (see C30: the length register loses the carry into its last limb). S-box and linear map are given by their published algebraic descriptions in the specification and the 8x256 look-up table is proved equal to them; the iteration constants C_i are a parameter."
  },
  {
   "property": "C37",
   "status": "proved",
   "theorems": [
    "Hashes.C37_short",
    "Hashes.C37_long",
    "Hashes.C37_sboxes"
   ],
   "note": "For messages of fewer than 2^64 blocks (range of the u64 block counter). The four S-boxes are a parameter of the specification (C37_sboxes shows each is a permutation)."
  },
  {
   "property": "C38",
   "status": "proved",
   "theorems": [
    "Hashes.C38_jh",
    "Hashes.C38_sizes"
   ],
   "note": "For messages of fewer than 2^64 bits: the code's length counter is a u64 while the specification has a 128-bit length field. Round constants are derived from C_0 by the specification's six-dimensional round function, initial values from the compression function; both are proved equal to the tables in the code."
  },
  {
   "property": "C39",
   "status": "proved",
   "theorems": [
    "Hashes.C39_tiger",
    "Hashes.C39_tiger2",
    "Hashes.C39_tables"
   ],
   "note": "Tiger and Tiger2 equal to the designers' definition for all messages; the table file equals the output of the designers' S-box generator."
  },
  {
   "property": "C40",
   "status": "proved",
   "theorems": [
    "Hashes.C40_gost94",
    "Hashes.C40_types",
    "Hashes.C40_boxes"
   ],
   "note": "For every S-box table and initial value (parameters, as in the standard)."
  },
  {
   "property": "C41",
   "status": "proved",
   "theorems": [
    "Hashes.C41_shabal",
    "Hashes.C41_sizes"
   ],
   "note": "No length bound (the 64-bit block counter wraps in both). The initial states are derived from the two prefix blocks; the cancellation of the last block's addition and subtraction in finalization is proved."
  },
  {
   "property": "C42",
   "status": "proved",
   "theorems": [
    "Hashes.C42_fsb",
    "Hashes.C42_compress",
    "Hashes.C42_rotation"
   ],
   "note": "Five types, every table of 272384 bytes (pi.bin is a parameter), every chunking; panics modelled as none and shown absent; shift_and_truncate = bit rotation for all parameters with 8|r<=p, not 8|p."
  },
  {
   "property": "C43",
   "status": "partial",
   "theorems": [
    "Hashes.C43_skein_partial",
    "Hashes.C43_skein",
    "Hashes.C43_standard",
    "Hashes.C43_violated"
   ],
   "note": "Proved for every chunking of every message below 2^64 bytes and every output length N that is a multiple of 8 (C43_standard), for every cipher (C43_skein). For other N the code leaves the last N%8 output bytes zero: exact behaviour C43_skein_partial, counterexample C43_violated."
  },
  {
   "property": "C44",
   "status": "proved",
   "theorems": [
    "Hashes.C44_belt",
    "Hashes.C44_standard"
   ],
   "note": "For every block cipher given on words and octets; also instantiated with the standard's belt-block (external crate belt-block, transcribed in the specification and checked against the repository's test vectors)."
  },
  {
   "property": "C45",
   "status": "proved",
   "theorems": [
    "Hashes.C45_hash256",
    "Hashes.C45_xof128",
    "Hashes.C45_iv"
   ],
   "note": "For every permutation (external crate ascon); the initial states are proved to be the standard's permuted initial values."
  },
  {
   "property": "C46",
   "status": "proved",
   "theorems": [
    "Hashes.C46_side",
    "Hashes.C46_sha256",
    "Hashes.C46_sha512",
    "Hashes.C46_kupyna",
    "Hashes.C46_groestl",
    "Hashes.C46_blake2b",
    "Hashes.C46_blake2s",
    "Hashes.C46_jh",
    "Hashes.C46_shabal"
   ],
   "note": "C46_side for all cores and both wrappers; the others relate the digest to the cut of the specification's full output (JH below 2^61 bytes, BLAKE2b below 2^64 bytes; Streebog is C36). C46_kupyna: shorter digests are suffixes of longer ones."
  },
  {
   "property": "C47",
   "status": "partial",
   "theorems": [
    "Hashes.C47_violated",
    "Hashes.C47_distinct_partial",
    "Hashes.C47_registered_partial",
    "Hashes.C47_registered_distinct"
   ],
   "note": "The claim is false of the code: sha3/src/lib.rs gives Shake256 the OID of Shake128 (C47_violated). C47_distinct_partial proves every other pair of differently-named algorithms distinct; C47_registered_partial compares every declared OID with an independently written registry and finds SHAKE256 the only mismatch; C47_registered_distinct shows that the registered values themselves are pairwise distinct, so correcting that one literal would make the full claim true."
  },
  {
   "property": "C48",
   "status": "partial",
   "theorems": [
    "Hashes.C48_hasher_partial",
    "Hashes.C48_reader_partial",
    "Hashes.C48_k12_partial",
    "Hashes.C48_cells",
    "Hashes.C48_blake2b_partial",
    "Hashes.C48_blake2s_partial",
    "Hashes.C48_mac_violated",
    "Hashes.C48_mac_partial",
    "Hashes.C48_sha1Checked_violated",
    "Hashes.C48_sha1Checked_partial",
    "Hashes.C48_sha1Checked_distinguish_violated",
    "Hashes.C48_cells_hasher",
    "Hashes.C48_cells_reader",
    "Hashes.C48_cells_k12",
    "Hashes.C48_cells_blake2",
    "Hashes.C48_cells_mac",
    "Hashes.C48_cells_sha1Checked"
   ],
   "note": "Memory-image model of every Drop impl (Model/Drop.lean). Proved: every cell of the hasher (and XOF reader) is zero after drop for all core types except BLAKE2 MAC, sha1-checked and Ascon (C48_hasher_partial, C48_reader_partial, C48_k12_partial; C48_cells and C48_cells_* show that the cells determine the value, for the cores, the wrappers, BLAKE2 and its MACs, KangarooTwelve and sha1-checked, so no field is overlooked); BLAKE2 hashers keep only h0, which is message-independent. The claim is false of the BLAKE2 MACs, whose Drop zeroizes a copy of the key block (C48_mac_violated: for every key and message the key is still in the dropped object), and of sha1_checked::Sha1, which is marked ZeroizeOnDrop but keeps chaining value and counter (C48_sha1Checked_violated, C48_sha1Checked_distinguish_violated). Ascon's state type and drop glue are in an external crate."
  },
  {
   "property": "C49",
   "status": "proved",
   "theorems": [
    "Hashes.C49_table",
    "Hashes.C49_quiet",
    "Hashes.C49_recompress"
   ],
   "note": "Table derived from (type, K, b, T) of each vector by the local-collision construction."
  },
  {
   "property": "C50",
   "status": "proved",
   "theorems": [
    "Hashes.C50_chain",
    "Hashes.C50_collision"
   ],
   "note": "All thirteen Merkle-Damgard hashers with untruncated output, stated on the code-level compression functions and the calls made (C50_chain: the digest encodes that iteration); the published MD5 collision is the concrete case."
  },
  {
   "property": "C51",
   "status": "proved",
   "theorems": [
    "Hashes.C51_domain",
    "Hashes.C51_functions"
   ],
   "note": "C51_domain on the modelled update_blocks/finalize block sequence, for all separation bytes; C51_functions for the hashers with the bytes the code uses, cSHAKE's name and customization string included."
  },
  {
   "property": "C52",
   "status": "proved",
   "theorems": [
    "Hashes.Asm.C52_sha256",
    "Hashes.Asm.C52_sha512",
    "Hashes.Asm.C52_sha1",
    "Hashes.Asm.C52_md5",
    "Hashes.Asm.C52_sha256_reads",
    "Hashes.Asm.C52_sha512_reads",
    "Hashes.Asm.C52_sha1_reads",
    "Hashes.Asm.C52_md5_reads",
    "Hashes.Asm.C52_sha256_mem",
    "Hashes.Asm.C52_sha512_mem",
    "Hashes.Asm.C52_sha1_mem"
   ],
   "note": "LoongArch assembly of SHA-1, SHA-256, SHA-512 and MD5. The x86/ARM/RISC-V/wasm backends use intrinsics, whose operands the compiler manages."
  },
  {
   "property": "C53",
   "status": "proved",
   "theorems": [
    "Hashes.C53_blake2b",
    "Hashes.C53_blake2s",
    "Hashes.C53_mac",
    "Hashes.C53_newFromSlice",
    "Hashes.C53_tables_swap",
    "Hashes.C53_tables",
    "Hashes.C53_tiger"
   ],
   "note": "Target-parametric model of blake2 and of tiger's table file; all digests and tags equal the specification on both byte orders. x86 target features are assumed to occur on little-endian targets only."
  },
  {
   "property": "C54",
   "status": "proved",
   "theorems": [
    "Hashes.C54_rotate32",
    "Hashes.C54_rotate64",
    "Hashes.C54_shuffle",
    "Hashes.C54_compress"
   ],
   "note": "Every branch of rotate_right_const and the shuffles, for every target; intrinsics and vext are modelled from their documentation."
  },
  {
   "property": "C55",
   "status": "proved",
   "theorems": [
    "Hashes.C55_table",
    "Hashes.C55_fsb",
    "Hashes.C55_compress",
    "Hashes.C55_extent"
   ],
   "note": "The whole file and the five hash functions. The decimals of pi are proved from Machin's formula in Mathlib's real numbers; no numerical literature value is assumed."
  },
  {
   "property": "C56",
   "status": "proved",
   "theorems": [
    "Hashes.C56_sha256_k",
    "Hashes.C56_sha512_k",
    "Hashes.C56_iv",
    "Hashes.C56_iv_short",
    "Hashes.C56_sha1_k",
    "Hashes.C56_md4_k",
    "Hashes.C56_ripemd_k",
    "Hashes.C56_jh_c0",
    "Hashes.C56_md5_rc",
    "Hashes.C56_md2_s"
   ],
   "note": "Roots and sines are Mathlib's real functions. RIPEMD and JH are stated on the constants of the specification, which C13 and C38 prove the code equal to."
  },
  {
   "property": "C57",
   "status": "proved",
   "theorems": [
    "Hashes.C57_length_extension"
   ],
   "note": "SHA-1, SHA-256, SHA-512, MD4, MD5, RIPEMD (four sizes), SM3, Whirlpool, Tiger, Tiger2. A security-relevant consequence of state import; the library does not promise otherwise."
  },
  {
   "property": "C58",
   "status": "proved",
   "theorems": [
    "Hashes.C58_state",
    "Hashes.C58_mac"
   ],
   "note": "Both variants; equality of states is characterised exactly."
  },
  {
   "property": "C59",
   "status": "partial",
   "theorems": [
    "Hashes.C59_cshake_partial",
    "Hashes.C59_cshake_panic",
    "Hashes.C59_cshake_violated",
    "Hashes.C59_k12_partial",
    "Hashes.C59_k12_violated",
    "Hashes.C59_k12_collision"
   ],
   "note": "The part that holds is proved for every width: strings shorter than 2^(p-3) bytes, inputs of at most 2^p chunks. Beyond that the claim is false; proved with collisions."
  },
  {
   "property": "C60",
   "status": "proved",
   "theorems": [
    "Hashes.C60_md2",
    "Hashes.C60_gost94",
    "Hashes.C60_gost94_boxes",
    "Hashes.C60_gost94_user_box",
    "Hashes.C60_whirlpool",
    "Hashes.C60_streebog",
    "Hashes.C60_groestl",
    "Hashes.C60_kupyna",
    "Hashes.C60_tiger",
    "Hashes.C60_sm3",
    "Hashes.C60_shabal",
    "Hashes.C60_belt",
    "Hashes.C60_k12",
    "Hashes.C60_sha1_checked",
    "Hashes.C60_blake2",
    "Hashes.C60_ascon",
    "Hashes.C60_sha3",
    "Hashes.C60_skein"
   ],
   "note": "Sixteen crates transcribed statement by statement with Rust's checks (FSB is covered by C42, counters by C29; MD4, MD5, RIPEMD and portable SHA-1 use literal indices only). C60_gost94_user_box: the trait Gost94Params lets a user supply an S-box that panics."
  },
  {
   "property": "C61",
   "status": "partial",
   "theorems": [
    "Hashes.Memory.C61_loong_trace",
    "Hashes.Memory.C61_loong_sha256",
    "Hashes.Memory.C61_loong_sha512",
    "Hashes.Memory.C61_loong_sha1",
    "Hashes.Memory.C61_loong_md5",
    "Hashes.Memory.C61_sha1",
    "Hashes.Memory.C61_sha256",
    "Hashes.Memory.C61_sha512",
    "Hashes.Memory.C61_sha512_avx2",
    "Hashes.Memory.C61_jh",
    "Hashes.Memory.C61_riscv_accesses",
    "Hashes.Memory.C61_riscv_pages",
    "Hashes.Memory.C61_riscv_partial",
    "Hashes.Memory.C61_riscv_undefined"
   ],
   "note": "Holds for all backends but RISC-V's pointer arithmetic: load_unaligned_block moves a pointer before the object with wrapping_sub and then applies add, which Rust leaves undefined when the word boundary before the block is outside the object. C61_riscv_undefined proves this, C61_riscv_partial the case that is defined, C61_riscv_accesses and C61_riscv_pages that the memory accesses themselves are right at every address. LoongArch register interface: C52."
  },
  {
   "property": "C62",
   "status": "proved",
   "theorems": [
    "Hashes.C62_md4",
    "Hashes.C62_md5",
    "Hashes.C62_sha1",
    "Hashes.C62_sha256",
    "Hashes.C62_sha512",
    "Hashes.C62_sm3",
    "Hashes.C62_ripemd256",
    "Hashes.C62_ripemd320",
    "Hashes.C62_tiger",
    "Hashes.C62_tiger_schedule",
    "Hashes.C62_whirlpool",
    "Hashes.C62_streebog",
    "Hashes.C62_skein",
    "Hashes.C62_groestl",
    "Hashes.C62_groestl_compress",
    "Hashes.C62_kupyna",
    "Hashes.C62_jh",
    "Hashes.C62_shabal",
    "Hashes.C62_keccak",
    "Hashes.C62_ascon",
    "Hashes.C62_blake2",
    "Hashes.C62_gost94",
    "Hashes.C62_md2"
   ],
   "note": "Stated on the modelled functions with Mathlib's Function.Bijective / Set.BijOn. Ascon and Skein: over the external permutation resp. block cipher, assumed bijective; for Ascon's standard permutation this is proved too. MD2 has no permutation (32 of 48 bytes are overwritten), so the statement there is what the result determines. RIPEMD-128/160, belt and FSB mix two lines or compress and are no permutations by design."
  },
  {
   "property": "C63",
   "status": "proved",
   "theorems": [
    "Hashes.C63_gost94_chain",
    "Hashes.C63_gost94",
    "Hashes.C63_streebog_chain",
    "Hashes.C63_streebog",
    "Hashes.C63_blake2b_chain",
    "Hashes.C63_blake2s_chain",
    "Hashes.C63_blake2b",
    "Hashes.C63_blake2s",
    "Hashes.C63_skein_chain",
    "Hashes.C63_skein",
    "Hashes.C63_belt_chain",
    "Hashes.C63_belt",
    "Hashes.C63_md2_chain",
    "Hashes.C63_md2",
    "Hashes.C63_fsb_chain",
    "Hashes.C63_fsb",
    "Hashes.C63_k12"
   ],
   "note": "Chain theorems (digest = encoding of the iteration of the code's step function over the listed arguments) and collision theorems; existence of the hypotheses by counting. Ciphers of Skein and BelT are parameters."
  },
  {
   "property": "C64",
   "status": "proved",
   "theorems": [
    "Hashes.C64_values",
    "Hashes.C64_sm3",
    "Hashes.C64_sha2",
    "Hashes.C64_jh",
    "Hashes.C64_shabal",
    "Hashes.C64_blake2",
    "Hashes.C64_sha3",
    "Hashes.C64_skein",
    "Hashes.C64_ascon",
    "Hashes.C64_belt",
    "Hashes.C64_md2",
    "Hashes.C64_tiger",
    "Hashes.C64_whirlpool",
    "Hashes.C64_streebog",
    "Hashes.C64_groestl",
    "Hashes.C64_kupyna",
    "Hashes.C64_gost94",
    "Hashes.C64_fsb",
    "Hashes.C64_values_backends",
    "Hashes.C64_sha1",
    "Hashes.C64_sha256",
    "Hashes.C64_sha512",
    "Hashes.C64_avx2",
    "Hashes.C64_riscv",
    "Hashes.C64_loong"
   ],
   "note": "C64_values and C64_values_backends tie the observed programs to those of C60 and C61 by forgetting the record. First group: whole computations (blocks and last step); backends: the block functions, at given addresses. Second group: the message blocks are determined by the observations (Reveals), block functions only. Source level; external permutations and ciphers show nothing by assumption."
  },
  {
   "property": "C65",
   "status": "partial",
   "theorems": [
    "Hashes.Names.C65_names_partial",
    "Hashes.Names.C65_names_violated",
    "Hashes.Names.C65_wrapped",
    "Hashes.Names.C65_debug_partial",
    "Hashes.Names.C65_debug_types",
    "Hashes.Names.C65_ascon_violated",
    "Hashes.Names.C65_ascon_block"
   ],
   "note": "Names: distinct for all types and output sizes except Skein, which reports one name for all sizes (C65_names_violated). Printing: independent of the state except for the three types of ascon-hash, whose text determines the state (C65_ascon_violated) and the absorbed block (C65_ascon_block)."
  },
  {
   "property": "C66",
   "status": "proved",
   "theorems": [
    "Hashes.C66_sha256",
    "Hashes.C66_sha512",
    "Hashes.C66_groestl_short",
    "Hashes.C66_groestl_long",
    "Hashes.C66_kupyna_short",
    "Hashes.C66_kupyna_long",
    "Hashes.C66_jh",
    "Hashes.C66_shabal",
    "Hashes.C66_streebog",
    "Hashes.C66_blake2b",
    "Hashes.C66_blake2s",
    "Hashes.C66_skein",
    "Hashes.C66_sha3",
    "Hashes.C66_keccak256Full",
    "Hashes.C66_shake",
    "Hashes.C66_turbo",
    "Hashes.C66_cshake",
    "Hashes.C66_ascon_hash",
    "Hashes.C66_ascon_xof"
   ],
   "note": "Model: digests of SHA-2, Groestl, Kupyna, JH, Shabal, Streebog, BLAKE2, Skein as output functions of the chain of the code's compression function; sponges with the code's absorb_block. Length limits: those of the length fields or counters (JH 2^64 bits, Shabal 2^64 blocks). Skein over any cipher, Ascon over any injective permutation (C62 proves the standard's one is)."
  },
  {
   "property": "C67",
   "status": "proved",
   "theorems": [
    "Hashes.C67_sha1",
    "Hashes.C67_sha256",
    "Hashes.C67_sha512",
    "Hashes.C67_sm3",
    "Hashes.C67_ripemd",
    "Hashes.C67_tiger",
    "Hashes.C67_fsb",
    "Hashes.C67_groestl",
    "Hashes.C67_kupyna",
    "Hashes.C67_md",
    "Hashes.C67_jh",
    "Hashes.C67_streebog",
    "Hashes.C67_shabal",
    "Hashes.C67_whirlpool",
    "Hashes.C67_whirlpool_small",
    "Hashes.C67_gost94",
    "Hashes.C67_belt",
    "Hashes.C67_blake2",
    "Hashes.C67_blake2_customized",
    "Hashes.C67_skein",
    "Hashes.C67_skein_any",
    "Hashes.C67_sha3",
    "Hashes.C67_shake",
    "Hashes.C67_turboShake",
    "Hashes.C67_cshake",
    "Hashes.C67_ascon",
    "Hashes.C67_k12",
    "Hashes.C67_sha1Checked"
   ],
   "note": "Exact: for every sequence of chunks the run is either the standard's digest or a panic, with the condition. Whirlpool: the condition on each slice is exact (C67_whirlpool), C67_whirlpool_small the simple form. BelT: up to 2^133 bytes, where its counter wraps. GOST94: slices below 2^64 bytes. Skein: C67_skein for output sizes that are multiples of 8, C67_skein_any for all (whole words of the standard's digest, the rest zero, see C43). cSHAKE: the digest where C18 gives it. KangarooTwelve: customization strings whose length is a usize; the TurboSHAKE inside runs with its checks. Buffering is the model of block-buffer; XOF readers run with their checks on the caller's buffers."
  },
  {
   "property": "C68",
   "status": "proved",
   "theorems": [
    "Hashes.C68_counted",
    "Hashes.C68_counted_saved",
    "Hashes.C68_fsb",
    "Hashes.C68_uncounted",
    "Hashes.C68_gost94",
    "Hashes.C68_whirlpool",
    "Hashes.C68_coverage"
   ],
   "note": "All serializable hashers (C68_coverage). The restored hasher is the model's load; C69 has deserialize with its checks."
  },
  {
   "property": "C69",
   "status": "proved",
   "theorems": [
    "Hashes.C69_load",
    "Hashes.C69_save",
    "Hashes.C69_run",
    "Hashes.C69_coverage"
   ],
   "note": "All serializable hashers (C69_coverage). The wrapper types CoreWrapper and CtVariableCoreWrapper (crate digest) and the buffer (crate block-buffer) are models of external code."
  },
  {
   "property": "C70",
   "status": "proved",
   "theorems": [
    "Hashes.C70_blake2bMac",
    "Hashes.C70_blake2sMac",
    "Hashes.C70_newFromSlice",
    "Hashes.C70_tags"
   ],
   "note": "Exact outcome of every constructor call and every history of calls; the digest part is C25's specification."
  },
  {
   "property": "C71",
   "status": "proved",
   "theorems": [
    "Hashes.C71_counted",
    "Hashes.C71_fresh",
    "Hashes.C71_uncounted",
    "Hashes.C71_uncounted_fresh",
    "Hashes.C71_gost94",
    "Hashes.C71_whirlpool",
    "Hashes.C71_fsb",
    "Hashes.C71_unsaved"
   ],
   "note": "Programs on several hashers with checks (Checked/World.lean): equal the model's programs (C03) or panic exactly where the ghost lengths of Spec.Lens say. C71_counted: SHA-1, SHA-2, SM3, RIPEMD, Tiger, Groestl, Kupyna; C71_fsb: FSB; C71_uncounted: MD2, MD4, MD5, Streebog, Shabal, Keccak, SHA-3; C71_gost94, C71_whirlpool; C71_fresh, C71_uncounted_fresh: programs that start with nothing emit the digests of the logged messages; C71_unsaved: BLAKE2, Skein, BelT, sha1-checked, JH, Ascon, SHAKE, cSHAKE, TurboSHAKE, KangarooTwelve, in programs without save and load."
  },
  {
   "property": "C72",
   "status": "proved",
   "theorems": [
    "Hashes.C72_programs"
   ],
   "note": "Exact, for every program. The specification (Spec.RtHash) knows sizes and messages only. RtVariableCoreWrapper itself is external (digest crate) and modelled; finalize_variable_core, update_blocks, new and Reset are the checked transcriptions of the crates."
  },
  {
   "property": "C73",
   "status": "proved",
   "theorems": [
    "Hashes.C73_values",
    "Hashes.C73_shown",
    "Hashes.C73_found",
    "Hashes.C73_unfiltered",
    "Hashes.C73_quiet",
    "Hashes.C73_conditions"
   ],
   "note": "C73_values ties the observed program to that of C60. C73_shown: equal records, equal judgements; C73_unfiltered: without the filter exactly that; C73_quiet, C73_found, C73_conditions: consequences. Source level, blocks (the padding blocks included) rather than the hasher around them."
  },
  {
   "property": "C74",
   "status": "proved",
   "theorems": [
    "Hashes.C74_values",
    "Hashes.C74_md",
    "Hashes.C74_sha2",
    "Hashes.C74_sm3",
    "Hashes.C74_jh",
    "Hashes.C74_shabal",
    "Hashes.C74_belt",
    "Hashes.C74_blake2",
    "Hashes.C74_skein",
    "Hashes.C74_sha3",
    "Hashes.C74_ascon",
    "Hashes.C74_md2",
    "Hashes.C74_tiger",
    "Hashes.C74_whirlpool",
    "Hashes.C74_groestl",
    "Hashes.C74_kupyna",
    "Hashes.C74_gost94",
    "Hashes.C74_streebog",
    "Hashes.C74_fsb"
   ],
   "note": "Leak/Run.lean around the block functions of C64 and C60; Proof/Leak/Run.lean (generic), Proof/Leak/Hashers.lean (each hasher). SHA-2 and JH: portable code, addresses relative to the block and the constants. Keccak, Ascon, Threefish and BelT's cipher are parameters that show nothing. The number of updates is taken as known."
  },
  {
   "property": "C75",
   "status": "proved",
   "theorems": [
    "Hashes.C75_values",
    "Hashes.C75_k12_value",
    "Hashes.C75_shake",
    "Hashes.C75_turbo",
    "Hashes.C75_cshake",
    "Hashes.C75_ascon",
    "Hashes.C75_k12",
    "Hashes.C75_lengths"
   ],
   "note": "Leak/Xof.lean; Proof/Leak/Xof.lean. The permutation is a parameter that shows nothing. The numbers of updates and reads are taken as known; that read lengths are shown is not claimed."
  },
  {
   "property": "C76",
   "status": "proved",
   "theorems": [
    "Hashes.Blake2.C76_values",
    "Hashes.Blake2.C76_lengths",
    "Hashes.Blake2.C76_shown"
   ],
   "note": "Leak/Blake2Mac.lean; Proof/Leak/Blake2Mac.lean. C76_values ties it to C70; C76_lengths: only lengths; C76_shown: those lengths (that the lengths of salt and personalisation are shown is not claimed). The comparison of tags in verify is the external crates digest and subtle."
  },
  {
   "property": "C77",
   "status": "proved",
   "theorems": [
    "Hashes.C77_values",
    "Hashes.C77_off",
    "Hashes.C77_unattacked",
    "Hashes.C77_shown",
    "Hashes.C77_judged",
    "Hashes.C77_default"
   ],
   "note": "Whole use of the hasher of any builder, observations of C64. C77_values: forgetting the observations gives the checked program. C77_off: detection off, exactly the lengths. C77_unattacked: no filter and no attack reported, only lengths. C77_shown: any configuration, lengths and whether an attack is reported are shown. C77_judged: with detection every whole block (not the padding) is judged alike. C77_default: witness that the default configuration shows more."
  }
 ]
}