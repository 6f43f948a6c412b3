{
 "C01": {"status": "proved", "note": "Generic over every core obeying the block-fold laws; C01_library instantiates it for every hasher type of the library (inductive catalogue Library), from any well-formed state."},
 "C02": {"status": "proved", "note": "Generic plus C02_library for every lazy hasher (BLAKE2b/s of every size, Skein); C02_which names them."},
 "C03": {"status": "proved", "note": "Generic plus C03_library for every hasher type; saves and loads included for the serializable ones."},
 "C04": {"status": "proved", "note": "Generic plus C04_library for every type implementing SerializableState."},
 "C05": {"status": "proved", "note": "Generic plus C05_library for every type implementing SerializableState."},
 "C06": {"status": "proved", "note": "portable (soft) backend; every chunking, every length (length field modulo 2^64)"},
 "C07": {"status": "proved", "note": "portable backend; every chunking, every length (length field modulo 2^128); SHA-512/t initial values derived by the standard's generator"},
 "C08": {"status": "proved", "note": "portable backend; every chunking and length"},
 "C09": {"status": "proved", "note": "Every backend selected by any build and CPU, given as transcriptions over instruction semantics (Isa/*): result of compress on any state and whole blocks equals FIPS 180-4 / RFC 1321, every call returns, and digests built on it equal the standards. Instruction semantics are trusted transcriptions of the vendor manuals."},
 "C10": {"status": "proved", "note": "portable backend; constants derived from the sine series"},
 "C11": {"status": "proved", "note": "every chunking and length"},
 "C12": {"status": "proved", "note": "every chunking and length; S-table is the RFC's literal table"},
 "C13": {"status": "proved", "note": "all four sizes; every chunking and length; word order and shifts from the designers' permutations"},
 "C14": {"status": "proved", "note": "every chunking and length; ring buffer message expansion and unrolled register roles proved against GB/T 32905"},
 "C15": {"status": "proved", "note": "All eight fixed-output instances and Keccak256Full, any chunking."},
 "C16": {"status": "proved", "note": "Any chunking, any sequence of reads."},
 "C17": {"status": "proved", "note": "Generic over lawful reader cores; instantiated for SHAKE/cSHAKE/TurboSHAKE and KangarooTwelve (Ascon: see C45)."},
 "C18": {"status": "partial", "note": "The full statement is false of the code: when the N/S prefix fills a whole number of rate blocks an extra zero block is absorbed (C18_violated gives a witness). C18_cshake_partial covers every other (N,S); C18_cshake_actual states what the code computes in all cases."},
 "C19": {"status": "proved", "note": ""},
 "C20": {"status": "proved", "note": "left_encode for every u64 and every scratch content; length_encode for every value below 2^64."},
 "C21": {"status": "proved", "note": ""},
 "C22": {"status": "proved", "note": ""},
 "C23": {"status": "proved", "note": ""},
 "C24": {"status": "proved", "note": "Blake2b bounded by the width of the code's u64 byte counter (2^64 bytes), as quantified; Blake2s unbounded. Includes new_customized."},
 "C25": {"status": "proved", "note": "new_with_salt_and_personal (keyed and unkeyed) and new_from_slice with a non-empty key; any sequence of update/reset/finalize_reset/clone+finalize."},
 "C26": {"status": "partial", "note": "Full claim is false: keys of 65..128 (33..64) bytes and salt/persona of 17..32 (9..16) bytes pass the documented length check and then panic in new_with_params; new_from_slice accepts an empty key and yields an unkeyed hash. C26_violated, C26_emptyKey_violated give the negation; C26_decision_partial is the exact accept/Err table."},
 "C27": {"status": "proved", "note": "Accepted sizes of all eleven variable-output cores through both wrappers, output length exactly N, InvalidBufferSize for any other buffer (external wrapper behaviour transcribed in Model/VarCore). C27_nonstandard: the constructors also accept sizes outside the algorithms' definitions (0 bytes for BLAKE2/Groestl/Kupyna short; <=32 bytes for Groestl long; 32 bytes for Kupyna long); the crates document no list of sizes."},
 "C28": {"status": "proved", "note": "Paddings of the specifications to which the digests are proved equal; no length restriction is needed for injectivity. Zero-padded algorithms (BelT, Skein, GOST 94) are injective together with the separately absorbed length; cSHAKE prefix encoding is injective below 2^2040 bits."},
 "C29": {"status": "partial", "note": "Length bookkeeping of every hasher with a counter, with overflow checks on (panic = none). C29_exact gives the exact limit and encoded value for sha2, sha1, sm3, ripemd, tiger, fsb, groestl, kupyna, blake2, skein, sha1-checked, for every chunking; C29_wrapping for md4/md5/jh; C29_belt for belt-hash; C29_agree links each to the release-profile core of the digest theorems; C29_standard compares with the limits of the standards. Violated: C29_narrow_violated (BLAKE2b, Skein, Kupyna, JH counters narrower than their specification), C29_whirlpool_violated (one update of 2^61 bytes panics, the same bytes in two pieces do not); C29_whirlpool_partial is the bounded form. gost94 and streebog have no checked operation that can overflow; their lengths are covered by the digest theorems C40 and C36 and by C30."},
 "C30": {"status": "partial", "note": "Proved for Whirlpool, GOST94 and Streebog's checksum. Violated for Streebog's length register: update_n never carries into limb 7 (C30_streebog_n_violated); C30_streebog_n_partial proves exactness below 2^448."},
 "C31": {"status": "proved", "note": "Full functional specification of try_finalize for every builder configuration and chunking, with SHA-1 when detection is off, when nothing is reported, and whenever safe_hash is off. No length bound (length field mod 2^64 as in SHA-1)."},
 "C32": {"status": "proved", "note": "Reported iff some padded block is explained by a listed vector at the plain SHA-1 chaining value; soundness spells out the second block and chaining value, completeness holds with the filter off."},
 "C33": {"status": "proved", "note": "Bit k of the mask is exactly the conjunction of the conditions listed for vector k (the list is formatted from ubc_check.rs; independently each condition is proved to relate two bits where the vector has a difference, so the filter is the same for both blocks of an attack); enabling the filter never adds a report."},
 "C34": {"status": "proved", "note": "Whirlpool equal to the ISO definition for all messages; lookup tables equal to S-box and matrix."},
 "C35": {"status": "proved", "note": "Groestl short and long equal to the specification for every admissible output size and every message; lookup tables equal to AES S-box times circulant."},
 "C36": {"status": "proved", "note": "For messages of bit length below 2^448 (see C30: the length register loses the carry into its last limb). S-box and linear map are given by their published algebraic descriptions in the specification and the 8x256 look-up table is proved equal to them; the iteration constants C_i are a parameter."},
 "C37": {"status": "proved", "note": "For messages of fewer than 2^64 blocks (range of the u64 block counter). The four S-boxes are a parameter of the specification (C37_sboxes shows each is a permutation)."},
 "C38": {"status": "proved", "note": "For messages of fewer than 2^64 bits: the code's length counter is a u64 while the specification has a 128-bit length field. Round constants are derived from C_0 by the specification's six-dimensional round function, initial values from the compression function; both are proved equal to the tables in the code."},
 "C39": {"status": "proved", "note": "Tiger and Tiger2 equal to the designers' definition for all messages; the table file equals the output of the designers' S-box generator."},
 "C40": {"status": "proved", "note": "For every S-box table and initial value (parameters, as in the standard)."},
 "C41": {"status": "proved", "note": "No length bound (the 64-bit block counter wraps in both). The initial states are derived from the two prefix blocks; the cancellation of the last block's addition and subtraction in finalization is proved."},
 "C42": {"status": "proved", "note": "Five types, every table of 272384 bytes (pi.bin is a parameter), every chunking; panics modelled as none and shown absent; shift_and_truncate = bit rotation for all parameters with 8|r<=p, not 8|p."},
 "C43": {"status": "partial", "note": "Proved for every chunking of every message below 2^64 bytes and every output length N that is a multiple of 8 (C43_standard), for every cipher (C43_skein). For other N the code leaves the last N%8 output bytes zero: exact behaviour C43_skein_partial, counterexample C43_violated."},
 "C44": {"status": "proved", "note": "For every block cipher given on words and octets; also instantiated with the standard's belt-block (external crate belt-block, transcribed in the specification and checked against the repository's test vectors)."},
 "C45": {"status": "proved", "note": "For every permutation (external crate ascon); the initial states are proved to be the standard's permuted initial values."},
 "C46": {"status": "proved", "note": "C46_side for all cores and both wrappers; the others relate the digest to the cut of the specification's full output (JH below 2^61 bytes, BLAKE2b below 2^64 bytes; Streebog is C36). C46_kupyna: shorter digests are suffixes of longer ones."},
 "C47": {"status": "partial", "note": "The claim is false of the code: sha3/src/lib.rs gives Shake256 the OID of Shake128 (C47_violated). C47_distinct_partial proves every other pair of differently-named algorithms distinct; C47_registered_partial compares every declared OID with an independently written registry and finds SHAKE256 the only mismatch; C47_registered_distinct shows that the registered values themselves are pairwise distinct, so correcting that one literal would make the full claim true."},
 "C48": {"status": "partial", "note": "Memory-image model of every Drop impl (Model/Drop.lean). Proved: every cell of the hasher (and XOF reader) is zero after drop for all core types except BLAKE2 MAC, sha1-checked and Ascon (C48_hasher_partial, C48_reader_partial, C48_k12_partial; C48_cells and C48_cells_* show that the cells determine the value, for the cores, the wrappers, BLAKE2 and its MACs, KangarooTwelve and sha1-checked, so no field is overlooked); BLAKE2 hashers keep only h0, which is message-independent. The claim is false of the BLAKE2 MACs, whose Drop zeroizes a copy of the key block (C48_mac_violated: for every key and message the key is still in the dropped object), and of sha1_checked::Sha1, which is marked ZeroizeOnDrop but keeps chaining value and counter (C48_sha1Checked_violated, C48_sha1Checked_distinguish_violated). Ascon's state type and drop glue are in an external crate."},
 "C49": {"status": "proved", "note": "Table derived from (type, K, b, T) of each vector by the local-collision construction."},
 "C50": {"status": "proved", "note": "All thirteen Merkle-Damgard hashers with untruncated output, stated on the code-level compression functions and the calls made (C50_chain: the digest encodes that iteration); the published MD5 collision is the concrete case."},
 "C51": {"status": "proved", "note": "C51_domain on the modelled update_blocks/finalize block sequence, for all separation bytes; C51_functions for the hashers with the bytes the code uses, cSHAKE's name and customization string included."},
 "C52": {"status": "proved", "note": "LoongArch assembly of SHA-1, SHA-256, SHA-512 and MD5. The x86/ARM/RISC-V/wasm backends use intrinsics, whose operands the compiler manages."},
 "C53": {"status": "proved", "note": "Target-parametric model of blake2 and of tiger's table file; all digests and tags equal the specification on both byte orders. x86 target features are assumed to occur on little-endian targets only."},
 "C54": {"status": "proved", "note": "Every branch of rotate_right_const and the shuffles, for every target; intrinsics and vext are modelled from their documentation."},
 "C55": {"status": "proved", "note": "The whole file and the five hash functions. The decimals of pi are proved from Machin's formula in Mathlib's real numbers; no numerical literature value is assumed."},
 "C56": {"status": "proved", "note": "Roots and sines are Mathlib's real functions. RIPEMD and JH are stated on the constants of the specification, which C13 and C38 prove the code equal to."},
 "C57": {"status": "proved", "note": "SHA-1, SHA-256, SHA-512, MD4, MD5, RIPEMD (four sizes), SM3, Whirlpool, Tiger, Tiger2. A security-relevant consequence of state import; the library does not promise otherwise."},
 "C58": {"status": "proved", "note": "Both variants; equality of states is characterised exactly."},
 "C59": {"status": "partial", "note": "The part that holds is proved for every width: strings shorter than 2^(p-3) bytes, inputs of at most 2^p chunks. Beyond that the claim is false; proved with collisions."},
 "C60": {"status": "proved", "note": "Sixteen crates transcribed statement by statement with Rust's checks (FSB is covered by C42, counters by C29; MD4, MD5, RIPEMD and portable SHA-1 use literal indices only). C60_gost94_user_box: the trait Gost94Params lets a user supply an S-box that panics."},
 "C61": {"status": "partial", "note": "Holds for all backends but RISC-V's pointer arithmetic: load_unaligned_block moves a pointer before the object with wrapping_sub and then applies add, which Rust leaves undefined when the word boundary before the block is outside the object. C61_riscv_undefined proves this, C61_riscv_partial the case that is defined, C61_riscv_accesses and C61_riscv_pages that the memory accesses themselves are right at every address. LoongArch register interface: C52."},
 "C62": {"status": "proved", "note": "Stated on the modelled functions with Mathlib's Function.Bijective / Set.BijOn. Ascon and Skein: over the external permutation resp. block cipher, assumed bijective; for Ascon's standard permutation this is proved too. MD2 has no permutation (32 of 48 bytes are overwritten), so the statement there is what the result determines. RIPEMD-128/160, belt and FSB mix two lines or compress and are no permutations by design."},
 "C63": {"status": "proved", "note": "Chain theorems (digest = encoding of the iteration of the code's step function over the listed arguments) and collision theorems; existence of the hypotheses by counting. Ciphers of Skein and BelT are parameters."},
 "C64": {"status": "proved", "note": "C64_values and C64_values_backends tie the observed programs to those of C60 and C61 by forgetting the record. First group: whole computations (blocks and last step); backends: the block functions, at given addresses. Second group: the message blocks are determined by the observations (Reveals), block functions only. Source level; external permutations and ciphers show nothing by assumption."},
 "C65": {"status": "partial", "note": "Names: distinct for all types and output sizes except Skein, which reports one name for all sizes (C65_names_violated). Printing: independent of the state except for the three types of ascon-hash, whose text determines the state (C65_ascon_violated) and the absorbed block (C65_ascon_block)."},
 "C66": {"status": "proved", "note": "Model: digests of SHA-2, Groestl, Kupyna, JH, Shabal, Streebog, BLAKE2, Skein as output functions of the chain of the code's compression function; sponges with the code's absorb_block. Length limits: those of the length fields or counters (JH 2^64 bits, Shabal 2^64 blocks). Skein over any cipher, Ascon over any injective permutation (C62 proves the standard's one is)."},
 "C67": {"status": "proved", "note": "Exact: for every sequence of chunks the run is either the standard's digest or a panic, with the condition. Whirlpool: the condition on each slice is exact (C67_whirlpool), C67_whirlpool_small the simple form. BelT: up to 2^133 bytes, where its counter wraps. GOST94: slices below 2^64 bytes. Skein: C67_skein for output sizes that are multiples of 8, C67_skein_any for all (whole words of the standard's digest, the rest zero, see C43). cSHAKE: the digest where C18 gives it. KangarooTwelve: customization strings whose length is a usize; the TurboSHAKE inside runs with its checks. Buffering is the model of block-buffer; XOF readers run with their checks on the caller's buffers."},
 "C68": {"status": "proved", "note": "All serializable hashers (C68_coverage). The restored hasher is the model's load; C69 has deserialize with its checks."},
 "C69": {"status": "proved", "note": "All serializable hashers (C69_coverage). The wrapper types CoreWrapper and CtVariableCoreWrapper (crate digest) and the buffer (crate block-buffer) are models of external code."},
 "C70": {"status": "proved", "note": "Exact outcome of every constructor call and every history of calls; the digest part is C25's specification."},
 "C71": {"status": "proved", "note": "Programs on several hashers with checks (Checked/World.lean): equal the model's programs (C03) or panic exactly where the ghost lengths of Spec.Lens say. C71_counted: SHA-1, SHA-2, SM3, RIPEMD, Tiger, Groestl, Kupyna; C71_fsb: FSB; C71_uncounted: MD2, MD4, MD5, Streebog, Shabal, Keccak, SHA-3; C71_gost94, C71_whirlpool; C71_fresh, C71_uncounted_fresh: programs that start with nothing emit the digests of the logged messages; C71_unsaved: BLAKE2, Skein, BelT, sha1-checked, JH, Ascon, SHAKE, cSHAKE, TurboSHAKE, KangarooTwelve, in programs without save and load."},
 "C72": {"status": "proved", "note": "Exact, for every program. The specification (Spec.RtHash) knows sizes and messages only. RtVariableCoreWrapper itself is external (digest crate) and modelled; finalize_variable_core, update_blocks, new and Reset are the checked transcriptions of the crates."},
 "C73": {"status": "proved", "note": "C73_values ties the observed program to that of C60. C73_shown: equal records, equal judgements; C73_unfiltered: without the filter exactly that; C73_quiet, C73_found, C73_conditions: consequences. Source level, blocks (the padding blocks included) rather than the hasher around them."},
 "C74": {"status": "proved", "note": "Leak/Run.lean around the block functions of C64 and C60; Proof/Leak/Run.lean (generic), Proof/Leak/Hashers.lean (each hasher). SHA-2 and JH: portable code, addresses relative to the block and the constants. Keccak, Ascon, Threefish and BelT's cipher are parameters that show nothing. The number of updates is taken as known."},
 "C75": {"status": "proved", "note": "Leak/Xof.lean; Proof/Leak/Xof.lean. The permutation is a parameter that shows nothing. The numbers of updates and reads are taken as known; that read lengths are shown is not claimed."},
 "C76": {"status": "proved", "note": "Leak/Blake2Mac.lean; Proof/Leak/Blake2Mac.lean. C76_values ties it to C70; C76_lengths: only lengths; C76_shown: those lengths (that the lengths of salt and personalisation are shown is not claimed). The comparison of tags in verify is the external crates digest and subtle."},
 "C77": {"status": "proved", "note": "Whole use of the hasher of any builder, observations of C64. C77_values: forgetting the observations gives the checked program. C77_off: detection off, exactly the lengths. C77_unattacked: no filter and no attack reported, only lengths. C77_shown: any configuration, lengths and whether an attack is reported are shown. C77_judged: with detection every whole block (not the padding) is judged alike. C77_default: witness that the default configuration shows more."}
}
