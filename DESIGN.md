# Formal model of RustCrypto/hashes — design

## 1. Layout

| path | content |
|---|---|
| `lean/Verif/Base/` | bytes, words, endianness, block splitting, vectors (definitions and helper lemmas) |
| `lean/Verif/Isa/` | semantics of the CPU instructions and intrinsics the backends use (x86, AArch64, RISC-V, wasm, LoongArch) |
| `lean/Verif/Model/` | the model: one file per crate or backend; each definition cites the `/repo` lines it transcribes |
| `lean/Verif/Checked/` | literal transcriptions of block functions with Rust's run-time checks (C60), whole hashers made of them (C67), and pointer rules (C61) |
| `lean/Verif/Leak/` | the same programs with a record of what an observer sees (C64), written by `tools/gen_leak.py` |
| `lean/Verif/Spec/` | specifications written from the standards (FIPS, RFC, ISO, GOST, DSTU, submission documents); they do not import the model |
| `lean/Verif/Proof/` | helper lemmas and refinement proofs |
| `lean/Verif/Props/` | the property theorems `Cnn_…`, with a concrete case (`example`) beside each |
| `properties.jsonl`, `MANIFEST.json` | the properties and which theorem proves which |
| `seeded/LOG.jsonl` | wrong programs the theorems were tested against (section 8) |
| `tools/` | generators and checkers (section 7) |

Every file is imported from `lean/Verif.lean` through its `Props` file.

## 2. Representation

* Bytes are `BitVec 8`, words `BitVec 32/64/128`, byte strings `List Byte`. Fixed arrays are `V2/V4/V5/V8` records or
  `Arr w n` (list with a length proof).
* Rust `wrapping_*` and `Wrapping` arithmetic is `BitVec` arithmetic.
* **Plain `+`, `*`, `+=` on counters** have the release-profile (wrapping) meaning in the algorithm models. `Model/Counters.lean`
  models the same bookkeeping with overflow checks on (panic = `none`), and C29 gives the exact lengths below which the two
  agree, so up to those lengths every digest theorem also holds for checked builds.
* Panics and `Err` are explicit (`Option`, `Except`) wherever the modelled function can fail.
* A hasher is a `Core` (what an algorithm crate implements) driven by the wrapper model; an API history is a list of
  operations on a store of handles (`Spec/History.lean`).
* Slices are at most `isize::MAX` bytes, as Rust guarantees; this matters only in C09 (`Backends.maxLen`).

## 3. External code (not in /repo; transcribed from its published source or specification, TRUSTED)

| crate | model | remark |
|---|---|---|
| `block-buffer 0.11.0-rc.4` | `Model/BlockBuffer.lean` | eager and lazy `digest_blocks`, `digest_pad`, `len64_padding_*`, `len128_padding_be`, `pad_with_zeros`, (de)serialization; modelled function by function so that digest theorems go through the buffer algorithm |
| `digest 0.11.0-pre.10` | `Model/CoreWrapper.lean`, `VarCore.lean`, `Xof.lean` | `CoreWrapper`, `CtVariableCoreWrapper`, `RtVariableCoreWrapper`, `XofReaderCoreWrapper`; their names and `Debug` texts in `Names.lean`, with `core::fmt`'s decimal numbers and derived `Debug` |
| `keccak 0.2.0-pre.0` (`p1600`) | `Model/Keccak.lean`, namespace `P1600` | transcribed and **proved** equal to Keccak-p of FIPS 202; the crate's optional `asm` feature is not modelled |
| `threefish`, `belt-block`, `ascon` | parameters of the Skein, BelT and Ascon models | theorems hold for every function in that place; C43_standard, C44_standard and C45_iv instantiate them with the ciphers of the standards |
| `cpufeatures` | `Backends.Cpu` | detection results are arbitrary Booleans |
| `zeroize` | `Model/Drop.lean` | `zeroize()` sets every cell of the value to 0 and is not optimised away |
| CPU instructions | `Isa/*` | vendor pseudo-code; little-endian memory; LoongArch memory accesses do not fault |

## 4. What of /repo is modelled

| /repo | model | not modelled |
|---|---|---|
| ascon-hash | `Ascon.lean` | `Debug` derive |
| belt-hash | `Belt.lean` | |
| blake2 (`lib`, `macros`, `consts`, `as_bytes`, `simd.rs`, `simd/simdty`, `simdop`, `simdint`) | `Blake2.lean` (portable path), `Blake2Simd.lean` (target byte order and the code behind the `simd`, `simd_opt`, `simd_asm` features, which the manifest currently comments out) | – |
| fsb | `Fsb.lean`, `FsbPi.lean` (the file `pi.bin`) | |
| gost94 | `Gost94.lean` | |
| groestl | `Groestl.lean`, `GroestlTables.lean` | |
| jh | `Jh.lean`, `JhTables.lean` | the `ppv-lite86` dispatch: vector operations are modelled by their meaning on 128-bit words |
| k12 | `K12.lean`, `Width.lean` (chunk counter of any width) | |
| kupyna | `Kupyna.lean`, `KupynaTables.lean` | |
| md2, md4, md5, ripemd, sm3 | `Md2`, `Md4`, `Md5`, `Ripemd`, `Sm3`; `Md5Loong` | |
| sha1, sha2 | `Sha1`, `Sha256`, `Sha512` (portable); `Sha1X86`, `Sha256X86`, `Sha1Arm`, `Sha256Arm`, `Sha512Arm`, `Sha2Riscv`, `Sha2Simd` (wasm and AVX2), `Sha1Loong`, `Sha256Loong`, `Sha512Loong`; dispatch in `Backends.lean` | |
| sha1-checked | `Sha1Checked.lean`, `Sha1Ubc.lean` | |
| sha3 | `Keccak.lean`, `Width.lean` (cSHAKE constructor for any width of `usize`) | |
| shabal, skein, streebog, tiger, whirlpool | `Shabal`, `Skein`, `Streebog`, `Tiger`, `Whirlpool` and their tables | |
| all crates: OIDs, `Drop`, `AlgorithmName`, `Debug` | `Oid.lean`, `Drop.lean`, `Names.lean` | `Debug` of private helper types (SIMD vectors, `DetectionState`), of `CollisionResult` (prints the digest) and the flags `{:#?}`, `{:x?}` |
| benches, tests, examples | | all (tests are used as known-answer data only) |

Simplifications, by model:

* **Whirlpool, GOST94** process a slice of blocks with one length update in front; the models do the same, and C30_*_slice show that
  this equals block-by-block updates.
* **Tiger** reads its S-boxes from `tables.bin`; `TigerTables.lean` holds them and C39_tables derives them with the designers'
  generator. `TigerBin.lean` holds the file itself and both readings of it (little- and big-endian targets, C53).
* **Shabal**'s 48 unrolled calls, **SHA1_DVS** and the UBC statements are tables extracted from the source text (section 7).
* **FSB**, a panic in the middle of an update is carried as `none`; C42 shows that it does not occur. C42 holds for every table of
  the size of `pi.bin`; C55 adds the content of the file.
* **BLAKE2**: vectors of four words with lane-wise operations; see `Blake2Simd.lean` for byte order and shuffles.
* **sha1-checked**: the macro-expanded forward and backward steps are lists of register assignments, compared with the text by tool.
* **Backends**: one definition per Rust function over `Isa/*`. Combinations rejected by `compile_error!` are
  allowed (a larger set of builds than the real one). For LoongArch the machine program is generated from the `asm!` text by
  `gen_loong.py`; calls assume that state, blocks and stack are disjoint, as Rust guarantees.
* **Drop**: memory cells of the named fields; padding bytes and copies made by the compiler (moves, spills) are outside.
* **`usize`**: `Keccak.lean` and `K12.lean` are the code of 64-bit targets (K12 counts chunks without bound); `Width.lean` has the
  two places where the width matters, and C59 relates them.
* **Run-time checks**: the models above use total list functions with defaults. `Verif/Checked/*` are second, literal transcriptions
  in which every operation that can panic is an `Option` (`Base/Rust.lean`); C60 shows that they equal the models. Covered: MD2, GOST94,
  Whirlpool, Streebog, Groestl, Kupyna, Tiger, SM3, Shabal, BelT, KangarooTwelve, sha1-checked, BLAKE2 (with its constructors), Ascon,
  sha3 and Skein; FSB's model is of this kind itself (C42); counters are in C29. MD4, MD5, RIPEMD and portable SHA-1 index arrays only
  by literals, which the compiler checks, and are not repeated. `Checked/Hashers.lean` puts these functions, the constructors, the
  counters and the padding together to hashers that are run over a list of chunks (`Checked/Run.lean`); C67 gives for each the exact
  condition for a panic, C68 the same for hashers restored from arbitrary bytes;
  `Checked/Serialize.lean` has `serialize` and `deserialize` (C69); `Checked/Blake2Mac.lean` has the MAC objects (C70); `Checked/World.lean` has programs on several hashers (C71; `reset` is simplified to assigning the initial value: most crates write `*self = Default::default()`, while BLAKE2, cSHAKE and sha1-checked assign fields, which cannot panic and by the model's `reset_eq` gives the same value; sha1-checked and the readers of extendable output take part without `save` and `load`). `Checked/WorldVar.lean` has programs on hashers sized at run time (C72). The buffering itself (`digest_blocks`) is the model of block-buffer.
  `Checked/Xof.lean` has the XOF readers with the caller's buffers; KangarooTwelve runs on the checked TurboSHAKE.
* **Raw pointers**: the models read bytes of a value. `Verif/Checked/{Sha1Ptr,Sha2Ptr,Sha2Simd,SoftPtr,Riscv}.lean` repeat the code with
  addresses: an object is an interval of addresses, and `add`, reads and writes outside it (or misaligned) are `none`
  (`Base/Raw.lean`, from the documentation of `core::ptr`). Provenance beyond "derived from this object" is not modelled;
  `vld1q_u32(&K32[t])` (AArch64), which reads four elements through a reference to one, is allowed to reach the end of the table.
  `Verif/Checked/Loong.lean` lists the accesses of a LoongArch program; that unaligned ones are supported by the processor is assumed.
  Not covered: the `repr(transparent)` casts between slices of arrays, `zeroize`, `transmute_copy` of Tiger's tables (C53 covers their value).
* **Observations** (C64): `Base/Leak.lean` records the index of every array access, the bounds of every slice, the outcome of every
  branch and every run-time check, and the addresses read and written through raw pointers (SHA-2, JH, the backends with vector or Zknh instructions);
  for LoongArch it is the list of loads and stores (`asmTrace`) and the number of iterations. Not recorded: operands of arithmetic, shifts
  and rotations, and which array an index belongs to (an observer who sees more learns no less; for the first group every access is
  made at a position fixed by the lengths, in a fixed order). Source level: what the compiler makes of it, and the hardware, are
  outside. The permutation of Keccak and Ascon, Threefish, the BelT cipher and the block buffer are black boxes that show nothing. MD4,
  MD5, RIPEMD and portable SHA-1 have only literal indices and no branches and are not repeated.  sha1-checked (C73): `Leak/Sha1Checked.lean` is written by hand (`&&` and `||` branch; the loop that fills `m2` shows the whole array).
  Whole hashers (C74): `Leak/Run.lean` puts the block buffer (its fill, copies, the split into blocks), the counters, the padding and the
  output around these block functions, for `new`, any number of `update`s and `finalize`, here including MD4, MD5, RIPEMD and portable SHA-1.
  Extendable output (C75): `Leak/Xof.lean` has the readers, TurboSHAKE, cSHAKE with its constructor, and KangarooTwelve with the TurboSHAKE
  hashers inside. The number of `update` and `read` calls is taken as known to the observer. BLAKE2 MACs
  (C76): `Leak/Blake2Mac.lean` has both constructors, `update`, `reset` and finalization; not recorded are writes at constant indices to the
  parameter array, and `verify` (external) is not there. sha1-checked as a whole
  (C77): `Leak/Sha1CheckedRun.lean`; whether detection is on, and both tests of `try_finalize`, are branches. Not covered: `reset` of hashers, `serialize`, the hashers sized at run time; that the lengths of reads are shown is not claimed.
* **Features**: `reset` (sha3, blake2), `oid`, `zeroize` on.

## 5. Violated properties and other findings

The full statement stays in `properties.jsonl`; the negation is proved with a witness, and the part that holds is `_partial`.

| id | finding |
|---|---|
| C18 | cSHAKE absorbs an extra zero block when the encoded N/S prefix fills a whole number of rate blocks |
| C26 | BLAKE2 MAC: keys of 65–128 (33–64) bytes and salt/persona of 17–32 (9–16) bytes pass the check and panic; an empty key gives an unkeyed hash |
| C29 | counters of BLAKE2b, Skein, Kupyna and JH are narrower than their specifications; one Whirlpool `update` of 2^61 bytes or more panics in checked builds, the same bytes in two pieces do not |
| C30 | Streebog `update_n` never carries into limb 7 |
| C43 | Skein with an output size that is not a multiple of 8 leaves the last bytes zero |
| C47 | SHAKE256 carries SHAKE128's OID |
| C48 | the BLAKE2 MAC `Drop` zeroizes a copy of the key block; `sha1_checked::Sha1` is marked `ZeroizeOnDrop` but keeps chaining value and counter |
| C59 | with `p`-bit `usize`, the bit length `len() * 8` of cSHAKE's N or S (sha3/src/macros.rs:494, 507) overflows from 2^(p-3) bytes on (512 MiB with 32 bits): a panic in checked builds, otherwise different pairs (N, S) with the same outputs; KangarooTwelve's `chain_length` (k12/src/lib.rs:39, 66) wraps after 2^p chunks and the hasher forgets all of them |
| C61 | RISC-V `load_unaligned_block` (sha2/src/sha256/riscv_zknh_utils.rs:43-62 and its SHA-512 twins) moves the block pointer back to a word boundary with `wrapping_sub` and then applies `add`: undefined whenever that boundary is before the start of the allocation, e.g. for an unaligned block at the start of an object; the words actually read are right. `wrapping_add` would be defined (C61_riscv_accesses) |
| C65 | `Skein256`, `Skein512`, `Skein1024` report one name for all output sizes (skein/src/lib.rs:166; the other generic types append the size); `AsconCore`, `AsconXofCore` and `AsconXofReaderCore` derive `Debug` and print their whole state, from which e.g. the last absorbed block follows (C65_ascon_block) |

Smaller observations, not violations of a stated property: `Gost94Params` is a public trait, and a user's S-box with entries of 16 or
more can make `v += u32::from(s[i][k]) << shft` (gost94_core.rs:32) overflow, a panic in checked builds (C60_gost94_user_box); constructors accept sizes outside the algorithms' definitions
(C27_nonstandard); the BLAKE2 core keeps `h0` after drop (message-independent, C48_blake2*_partial); `K64X2` in
sha2/src/consts.rs:84-92 duplicates the wrong pairs and is unused; saved states carry no type tag, so types of one layout accept each
other's states (MD4 and MD5, example beside C05_other_size; sizes within a family are told apart); MD2, Tiger, Whirlpool, Streebog, Groestl, Kupyna, GOST94 and FSB look up tables at indices that depend on the data (FSB also branches on it), and their observations determine the message (C64); the parameter set `GOST28147UA` and GOST94's `Debug` string use other names than the types.

## 6. Proof methods

| properties | method |
|---|---|
| C01, C02 | representation invariant of the buffer; induction over the list of chunks |
| C03–C05 | forward simulation to "log of bytes since reset"; round-trip and canonicity of accepted byte strings |
| C06–C08, C10–C14 | equality of unrolled code with the loops of the standard (schedule recurrence, register rotation), lifted to messages |
| C09, C52 | lane-wise lemmas per instruction; symbolic execution of the LoongArch programs with frame conditions; use/def analysis |
| C15–C23, C51 | sponge with bit-level padding; XOF as a stream; tree hash by refinement of the streaming state |
| C24–C26, C53, C54 | row/diagonal code against RFC 7693; decision logic of constructors; byte order and shuffles as parameters |
| C27, C46 | decision logic for every natural number; truncation side |
| C28, C50, C63 | padding injectivity; backward induction along two chains: they differ at some call, or the shorter list of arguments is a suffix of the longer, which length field, counter or flag exclude (MD2: no such field, so a return to the initial value remains); the collision is one of two calls made, since two arguments with the same output exist anyway by counting |
| C29, C30 | exact arithmetic with and without overflow checks |
| C31–C33, C49 | inverse step lemmas; table of conditions compared with the one derived from the disturbance vectors |
| C34–C45 | specification equality; tables by kernel computation over the whole index range |
| C47, C48 | finite catalogue; memory-image model |
| C65 | finite catalogue of texts (no text a prefix of another); decimal numbers split off at the first non-digit or last underscore |
| C66 | the chain argument of C50/C63 up to the last chaining value, then the output function; sponges: the permutation is injective (C62), so equal last states have equal untouched parts before the last block, and equal prefixes would give equal last blocks, against injectivity of the padding; Shabal (no length field): the counter excludes a return to the initial value |
| C55 | Machin's formula and the error bound of alternating series; 2097152 terms of the arc tangent series by halving, evaluated by the kernel (one declaration, about one minute and 3 GB); parities of decimals row by row |
| C56 | integer bounds on powers for roots; alternating Taylor sums with an error bound for sines; the decimals of C55 for MD2 |
| C57, C58 | saved state as a function of digest and length; injectivity of the parameter block |
| C60 | refinement: the statement-by-statement program over `Option` equals `some` of the model; loop invariants for lengths and ranges |
| C67 | simulation of the checked hasher by the model's hasher together with the counter of C29: the run fails exactly when the counter's run does (C29 gives the bound), otherwise the digest is that of the refinement theorems |
| C68 | the same simulation from an arbitrary state: the counter is the one in the state, shapes of the loaded arrays from `deserialize`; the bound of C29 shifted by the claimed length |
| C69 | refinement as for C60 (`Checked/Serialize.lean`); invariant of the hashers a program can reach for the shapes of arrays |
| C70 | refinement as for C60 (`Checked/Blake2Mac.lean`); induction on the history with the bytes since the last reset as ghost state |
| C71 | simulation of programs call by call (`Proof/World.lean`), invariant: hasher reachable, claimed length = counter and buffer; ghost state of lengths. Hashers without serialization: invariant that the counter book holds what it holds after a message of the ghost length (`Props/WorldPlain.lean`) |
| C72 | simulation of programs call by call: each live hasher stands for its size and message (`RtSim`), by the counter book of C71; `Reset` of BLAKE2 through the saved initial state |
| C73 | both directions by comparing two runs: equal records lead both runs through the same branches (`Reads`, as for FSB), and runs that decide alike show the same (`Rel`); the decisions are those of C32 and C33 |
| C61 | refinement as for C60, with addresses; LoongArch: every access of the listed trace against static bounds per instruction |
| C62 | each round undone one word operation at a time (injective on a finite type, hence bijective); linear layers (MixColumns, the circulant matrices, Streebog's `l`) by a table of inverses of the unit vectors (`tools/gen_perm_tables.py`), checked by the kernel |
| C74 | generic in the hasher (`Proof/Leak/Run.lean`): a hasher whose block function and finalization are related for equal lengths (`Quiet`) runs alike on equal lengths; one whose block function tells its blocks, and whose finalization tells the buffered bytes (`Telling`), is read back from the front (`Reads`); the lengths themselves are read from the buffer's branches and slice bounds; returning is C67 |
| C75 | as the first group of C74 with two cores instead of one (`Alike`), so that names and customization strings may differ; KangarooTwelve: an invariant on the inner buffers for the values, a relation of two states for the observations, function by function |
| C76 | as C74, over sequences of calls: a relation of two objects (same counter, buffers filled alike, key blocks of the same length) kept by every call |
| C77 | as C74 with detection off; otherwise a relation of two runs on condition that neither finds an attack, which is never unfound (`While`), and one in which the observations tell the outcome of every block (`Partly`) |
| C64 | first group: relational proof (two runs with related lengths show the same); second group: the accesses of the first round give the bytes of the looked-up words one after another, from which the block follows; then induction over the blocks; FSB, whose runs differ in length: the record can be read back from the front (`Reads`); LoongArch: a syntactic check of the programs (bases of accesses and the counter are never computed from data) and its soundness |
| C59 | constructor and tree hash with arithmetic modulo 2^p; explicit collisions |

## 7. Evidence for the transcription

* `tools/check_tables.py` compares every constant table of the model with the text of `/repo` (96 comparisons).
* `tools/check_citations.py` lists citations whose line range does not match the named item's extent.
* `tools/gen_*.py` generate `*Tables.lean`, `Sha1Ubc.lean`, `*Loong.lean`, `FsbPi.lean` from `/repo`; `gen_pi.py` generates the
  decimals of π and the polynomials of `Proof/PiSplit.lean`, which are proved right.
* `tools/kat*.py` run the model on the published test vectors found in `/repo` (a check of model and specification, not a proof).

## 8. Wrong programs

`tools/mutate.py` edits a definition of the model in a scratch copy, as a realistic bug would, and rebuilds the theorems that
depend on it. Each line of `seeded/LOG.jsonl` says what was edited, which claim it breaks and which theorems failed.
`failed_at` is what was observed: the declarations at which the rebuild stopped. `theorems_failed` is wider and partly inferred: when
the build stops in a helper, the property theorems after it are not compiled at all. The entry then lists the theorems of the target
module that could not be built, or, where `theorems_failed_from` says `dependents of failed_at`, the property theorems which in the
unedited library use a declaration of `failed_at` (directly or not). Such a theorem lost its proof; that no other proof of it exists
was not tried. For some entries the edited function is a specification (`Spec.…`): the edit then breaks the claim about that function.
Survivors (`survived`) are equivalent programs or leave the claim true (`why` says so); otherwise they led to a stronger theorem
(`tightened`).

## 9. Trusted base

* Lean 4.33.0 kernel; axioms `propext`, `Classical.choice`, `Quot.sound` only (`#print axioms`, also checked by `vcheck`).
* No `sorry`, no added axioms, no `native_decide`, no `bv_decide`. `decide +kernel` is evaluation by the kernel.
* The transcription of the Rust source into `Model/` and of the standards into `Spec/`.
* The semantics of the external code of section 3.
* rustc: that the compiled program has the meaning of the source.
