# Formal model of digestpp in Lean 4

Subject: the header-only C++11 library in /repo (kerukuro/digestpp). `/repo` is read as text only; nothing of it is
compiled or run.

## 1. Layout

* `lean/Verif/Vocab.lean`, `History.lean`, `Catalog.lean`: bytes, API calls and observations; conditions on histories of
  calls; the list of all classes of the library (`HashName`, `XofName`), with the sizes and parameter lengths they document.
* `lean/Verif/Model/*.lean`: the model. One file per C++ header, one definition per C++ function, each with a comment
  giving the file and lines it transcribes. `Model/Tables/*.lean` holds the constant tables of the headers.
* `lean/Verif/Cpp/*.lean`: C71 and C72 only: an interpreter for part of C++ (`Semantics`), the text of eleven headers translated by `tools/cpp2lean.py` (`Src/`), calls of the functions (`Program`, `Xof`, `Mac`, `AsconCalls`, `EschCalls`); `Src/Clear` has `clear` of eighteen headers, nine of them not otherwise translated.
* `lean/Verif/Spec/*.lean`: small independent specifications: each algorithm as its standard describes it
  (padding of the whole message, iteration over blocks, S-boxes and matrices instead of lookup tables, streams for XOFs) and
  the abstract API machine (an object is a pair of parameters and absorbed bytes). No spec file imports a model file.
* `lean/Verif/Statements.lean`: what it means that a class conforms to a specification (`HashConforms`, `XofConforms`).
* `lean/Verif/Proofs/*.lean`: helper lemmas.
* `lean/Verif/Properties/*.lean`: the theorems listed in MANIFEST.json, each with a concrete case (`example`) beside it.
* `modeltest/run.py`: evaluates the model on the library's test vectors (section 6).
* `seeded/`, `tools/`: wrong programs, the log of what happened to them, and the scripts (section 7).

## 2. How the code is modelled

* Bytes are `BitVec 8`; `uint32_t`, `uint64_t`, `size_t` are `BitVec 32`, `BitVec 64` or `Nat` reduced modulo 2^64 where the code can
  reach the wrap-around. Memory ranges are `List`s. Little-endian loads and stores through `reinterpret_cast` are byte
  list conversions (README.md: big-endian systems are not supported).
* Undefined behaviour is a separate outcome: every function that touches a buffer at a computed offset runs in
  `M = Except UB`; an out-of-range copy, read or store, a division by zero, an over-wide shift or `&v[0]` on an
  empty vector yields `.error ub`. `size_t` subtractions that can underflow wrap around, so that an
  underflowing `memset` length shows up as an out-of-range access.
* Indexing of local arrays inside compression functions (`v[4]`, `W[t-16]`) is modelled twice. The model that the properties are proved of uses total
  functions on lists. `Model/Locals` transcribes the same bodies once more statement by statement: each array has its declared size, its initial contents are
  arbitrary, and each read and write is checked. C58 says that the two agree (so no index is out of range and no uninitialised element matters).
* `rotate_left`/`rotate_right` by constants carry a proof in the model that the count is between 1 and the width minus one; by
  computed counts they are checked at run time.
* C++ exceptions (`std::runtime_error`) are ordinary results of the API functions, together with the state of the object at the
  point of the throw.
* `absorb_bytes` (detail/absorb_data.hpp) is modelled once, with `transform` as a parameter as in the C++ template, including the
  64-bit wrap-around of `pos + len` and of the bit counter.
* An object before construction is an arbitrary memory (`Mem`: arrays of the declared sizes with arbitrary contents), so nothing is
  assumed about uninitialized members.
* `hasher.hpp` is modelled as a machine with the calls `absorb` (five overloads), `digest` (two), `hexdigest`, `squeeze` (two),
  `hexsqueeze`, `reset(bool)` and the setters of the mixin; a history is a list of calls. `std::ostringstream` formatting is modelled by
  `setw`, `setfill` and base-16 printing of an `unsigned int`; an input stream by the bytes left in it and the `read`/`gcount` loop.
* Preconditions relied on: the caller's ranges are valid memory, so shorter than 2^63 bytes; the strings passed to setters are shorter
  than 2^61 bytes (`std::string::max_size` of the usual libraries is below 2^63; between the two the bit lengths that the code
  computes wrap around).

### Notes on single algorithms

* **SHA-2**: one model for both word sizes, with a record of the overloaded functions. `static_size::sha512<384>` and `sha512(384)` use the
  SHA-384 initial value, other sizes go through the SHA-512/t generation; specification from FIPS 180-4.
* **SHA-3, SHAKE, cSHAKE, KMAC, K12**: the unrolled permutation of sha3_provider.hpp against theta, rho, pi, chi, iota on a 5x5 array; round
  constants and rotation offsets from the recurrences of FIPS 202, not from tables.
* **BLAKE, BLAKE2**: `G` on references becomes a function on four words. BLAKE2X and BLAKE2p use the same provider in the model as in
  the code. BLAKE2p: a leaf is an object in the array of leaf objects; OpenMP parallelism is a list of interleaved single-block updates (C42).
  Only `blake2_type::hash` of blake2p_provider.hpp is used by the library and modelled.
* **Skein**: Threefish as unrolled in the code (`G8` with tables of word indices) against the key schedule, mix and permute of the
  specification; UBI with tweaks; configuration, key, personalization and nonce blocks; tree hashing is not in the library.
* **Groestl, Whirlpool, Kupyna, Streebog**: combined lookup tables of the code against S-box and MDS matrix over GF(2^8) (Streebog: over GF(2));
  equality is proved for all 256 entries of each table by kernel evaluation. S-boxes of Groestl and ECHO are computed from the field inversion, that of
  Whirlpool from its mini-boxes. The S-box of Streebog is a literal table, but proved equal to the algebraic function found by Perrin (C70). The four Kupyna S-boxes are
  literal tables without known structure; they were transcribed from the diagonals of the code's tables, compared with the first rows of DSTU 7564, and are
  proved to be bijections with differential uniformity 8, as their designers say. So a wrong entry in these four that keeps both is outside the proofs (but not
  outside the test vectors).
* **Streebog**: the addition of a block to the checksum is an argument of the model, so that the theorem can be stated both for the
  code (`addm`) and for a corrected one.
* **LSH, SM3**: `rotate_left` by 0 or by 32 and more is undefined in C++. The model takes the meaning of this one call as a parameter: the rule of the language
  (`rotlChecked`), the usual machines (`rotlMasked`), machines whose over-wide shifts give zero (`rotlZero`), or any function that rotates
  correctly below the width (`RotatesBelow`).
* **Esch**: the array `H` has `N / 32` elements; Sparkle on 12 or 16 words.
* **Ascon**: the precomputed initial states are proved to be the permutation of the initial values of SP 800-232. Bit-sliced S-box against its table.
* **ECHO**: the array `h` of the code is shared between chaining value and message buffer; the model keeps the two parts apart. The comparison
  `m != mp` by which the code avoids copying a block onto itself is not modelled: in the model the block is always copied. `Model/Locals/Echo.lean` has the shared array and the
  comparison, and C58 proves that it agrees.
* **JH**: bit-sliced rounds with the seven kinds of swaps; even and odd halves are modelled as separate arguments. Proved equal to the rounds on 256
  four-bit elements; the 168 words of round constants are generated from the square root of two.

### Not modelled

* Overload resolution and `enable_if` conditions other than for calls of the members of `hasher`, of the mixins and of the constructors, which are in `Model/Overloads` and `Model/Ctors` (C68). Types with user-defined conversions to the parameter types, `volatile` and enumerations are not in the grammar of types there. Elsewhere the model has the functions that result.
* Compilers, big-endian machines, a `size_t` of fewer than 64 bits except in `Model/Width` (C62), signal handling, allocation failure (`std::bad_alloc`) in constructors, in `init` and in the raw-pointer overloads of the setters.
* Strict aliasing (`reinterpret_cast` of byte buffers to words): the code relies on the compiler accepting it. Alignment and null pointers in `absorb` are modelled separately
  (`Model/Pointers`, C59), except in the parallel BLAKE2 and the k12 classes; elsewhere memory ranges have no address.
* There is no overload `absorb(const char*)`: a call with a string literal converts it to `std::string` (`Model/Calls`, C68). `absorb(ptr, len)` is modelled with a valid range.
* Time and side channels other than the indices and branches of the transformation functions (C66) and of `init`, `update`, `squeeze` and `final` (C67). `init` of the classes without key is not traced, as it has no secret input; nor are `set_key` and the other setters (`kmac_key_length`: what they store has a length that is a function of the length given), `left_encode` and `right_encode` (of lengths only), accesses at literal indices, and branches on template arguments only. BLAKE2sp and BLAKE2bp are traced without OpenMP; copies left on the stack and in buffers that a `std::string` has given up (relevant to C45).
* Threads are modelled in `Model/Threads` (C63); that objects share no mutable data is visible from the absence of `static` non-const members. OpenMP in BLAKE2p is modelled
  separately, at the granularity of single-block updates (C42).
* Move construction and assignment: every provider has a user-declared destructor, hence no implicit move operations, and `std::move` of a hasher copies the provider (C44).
* docs, tests, build files.

## 3. Trusted base

* Lean 4.33.0's kernel.
* Axioms: of the theorems in MANIFEST.json (checked with `#print axioms`), each depends on a subset of `propext`, `Classical.choice`, `Quot.sound`, and
  no other axiom; no `sorry`, no `native_decide`, no `bv_decide`. Finite tables are compared by `decide +kernel` (kernel evaluation).
* The transcription of the C++ text into `Model/` (by hand, comments with line numbers; supported by section 6).
* For C71 instead of the model: `tools/cpp2lean.py` (the parser and translator; it stops at text it does not know), `Cpp/Semantics.lean`, and the tables of constants, copied by
  `tools/gen_tables.py`. The meaning assumes a machine with 8-bit bytes, 32-bit `int`, 64-bit `size_t` and little-endian words. Simplified: `auto`/`std::array` members and local arrays are
  arrays numbered from 0, the local ones exist from the start and keep their contents between calls (these are arbitrary at first; an array cannot be read as "uninitialized");
  alignment is not modelled and an array of bytes may be read as words (`reinterpret_cast`); a pointer may point anywhere, only its use is checked; in SHA-1 the pointer to a function is
  a number; overloads and template arguments (`T`, `N`) are chosen by the translator; the lambda passed to `absorb_bytes` is the call of `transform` it contains; `clear` is
  translated for C72 (not those of KMAC, K12 and the parallel BLAKE2, which call `clear` of members; a string is its length and an array of its characters, a union of two arrays
  is the larger one), that the destructor calls it is not; in `init` of SHA-512 the `std::string` is an array given by `sha512Name`; what follows a `return` is moved into the other branches;
  `zero_memory(x)` is the `memset` of the whole array it stands for; the bit operations on `int` are on the two's complement, as since C++20; `hs` and `rate` of SHA-3 are numbers;
  of Ascon the variable `Z0`, whose address is used, is an array of one word, the tables of initial values are arrays of `init`, the enumerators `hash`, `xof`, `cxof` are 0, 1, 2, and `final` is
  the call of `squeeze` that it consists of (`AsconCalls`); of Esch `hs`, `N`, `XOF` and the argument `lastBlock` are numbers and truth values given to the text, `transform` with `lastBlock` false and true being
  two functions, and `final` is the call of `squeeze` that it consists of (`EschCalls`); of SHAKE and cSHAKE the strings `N` and `S` are arrays, and `N.empty()`, `S.empty()`, `N.length()`, `S.length()` are variables given with the object; `update` called by `init` gets the
  first `len` bytes of the array and nothing else (`Xof.own`); `x++` in an assignment is a statement after it; `left_encode` is translated where it is called, its result being an assignment;
  the permutation is run with its variables uninitialized; of KMAC only `right_encode` and `squeeze` are translated: `init`, `update` and `final`, which are one or two calls, are in `Cpp/Mac`
  by hand, and the member `K` is given as the bytes that `bytepad` computes (which uses `std::string`; C09 has it in the model).
* The transcription of the standards into `Spec/` (from memory, there being no network; supported by section 6).
* The meaning of the statements: `Statements.lean`, `Spec/Api.lean`, `History.lean`, `Catalog.lean`, and the `Properties` files.

## 4. The main shape of the proofs

For each class there is a specification function `f` from parameters and message to digest (or to the stream of output bytes). The theorem
`X_conforms` says: for every memory the object is constructed on, construction succeeds, and for **every** history of calls the observations
are those of the abstract machine `Spec/Api.lean`, which keeps only the parameters, the bytes absorbed since the last `init`, and (XOF) the number of bytes
squeezed, and answers with `f`. Proof: an invariant between object and abstract state (`Proofs/Api.lean`), preserved by each provider function
(`init`, `update` through the generic lemma for `absorb_bytes`, setters, `clear`), with equality of output in `final` and `squeeze`. Compression functions are
proved equal to the standard's round description. No bound on the number of calls or on lengths other than those stated.

The laws of the API (chunking, reset, copies, ...) are then consequences for all classes of `Catalog.lean` at once, and are stated without reference to the
algorithms' specifications: two histories, same observations.

## 5. Properties

Status as in MANIFEST.json, which names the theorems.

| | Property | Status | What is modelled, how it is proved |
|---|---|---|---|
| C01 | Splitting a message over absorb calls | proved | all classes; both histories lead to the same abstract object |
| C02 | MD5 | proved | refinement, section 4; RFC 1321, sine table from integer arithmetic |
| C03 | SHA-1 | proved | FIPS 180-4 |
| C04 | SHA-224, SHA-256 | proved | FIPS 180-4 |
| C05 | SHA-384, SHA-512, SHA-512/t | proved | FIPS 180-4, with the IV generation function |
| C06 | SHA-3 | proved | FIPS 202 on bit strings |
| C07 | SHAKE | proved | FIPS 202, stream of output bytes |
| C08 | cSHAKE | partial | false when the encoded strings fill a block exactly (finding 1); proved otherwise, and the exact behaviour in all cases |
| C09 | KMAC | partial | inherits finding 1; same |
| C10 | KangarooTwelve, KT256, MarsupilamiFourteen | proved | tree on the concatenated string; messages below 2^64 bytes |
| C11 | BLAKE | proved | final submission, with salt |
| C12 | BLAKE2b, BLAKE2s | proved | RFC 7693 with the full parameter block; key, salt, personalization |
| C13 | BLAKE2X | proved | for hash and XOF, output up to 2^32 blocks (more is not addressable) |
| C14 | BLAKE2bp, BLAKE2sp | partial | proved for all histories without `reset(true)`; false after it (finding 5); exact behaviour in all histories: `X_conforms_clr` |
| C15 | Skein | proved | version 1.3, key, personalization, nonce; messages below 2^64 bytes |
| C16 | Groestl | proved | S-box, ShiftBytes, MixBytes over GF(2^8) |
| C17 | JH | proved | rounds on 256 four-bit elements |
| C18 | Whirlpool | proved | mini-boxes, circulant matrix |
| C19 | Kupyna | proved | S-boxes, circulant matrix |
| C20 | Streebog | partial | false when a carry must pass through a word (finding 2); proved for a corrected addition, for messages without such a carry, and exactly |
| C21 | SM3 | partial | undefined shifts (finding 3); proved for every machine whose shifts rotate |
| C22 | LSH | partial | same |
| C23 | ECHO | proved | AES rounds from the field, salt, counter |
| C24 | Esch, XOEsch | proved | Sparkle |
| C25 | Ascon-Hash256, XOF128, CXOF128 | proved | SP 800-232 |
| C26 | digest does not disturb the hasher | proved | any provider, any history |
| C27 | reset() | proved | all classes |
| C28 | reset(true) | partial | false for blake2bp, blake2sp, ascon_cxof (finding 5), with the exact behaviour of these three in all histories (`Spec/Clear.lean`); proved for all others |
| C29 | Parameter setters | proved | all classes |
| C30 | Rejected parameters leave the hasher untouched | proved | all classes |
| C31 | XOF output independent of squeeze sizes | proved | all XOF classes |
| C32 | Zero-length squeeze | partial | false in every XOF class (finding 6); the exact effect in every history of every class is proved |
| C33 | Hex output | proved | decoding gives back the bytes; characters and length |
| C34 | digest writes exactly the promised bytes | proved | all classes |
| C35 | Constructors reject unsupported sizes | partial | false (finding 4); proved for the classes that use the range check |
| C36 | Stream absorb | proved | loop with its buffer |
| C37 | Overloads agree | proved | all classes |
| C38 | No access out of bounds | proved | all classes, all histories; and squeeze(0, it) is undefined (finding 6) |
| C39 | No undefined shift | partial | false for SM3 and LSH (finding 3); proved for all others |
| C40 | Padded inputs determine the message | proved | the lists of compression function inputs are injective in message and parameters |
| C41 | Length encodings | proved | left_encode, right_encode, K12's length_encode: decoders |
| C42 | OpenMP schedules | proved | all interleavings of single-block updates |
| C43 | Static and runtime sizes agree | proved | all classes with both forms |
| C44 | Copies | proved | operations on one of two objects |
| C45 | clear wipes | partial | two memories with different secrets are equal after `clear`; false for ascon_cxof's customization |
| C46 | 2^64-bit counters | proved | exact behaviour for every length: the standard with the length field reduced modulo 2^64 bits |
| C47 | cSHAKE without strings is SHAKE | proved | corollary on observations |
| C48 | Different parameters are absorbed differently | proved | injectivity of the sponge input blocks of cSHAKE and KMAC |
| C49 | BLAKE2X sizes | partial | the documented upper end is rejected (finding 8) |
| C50 | Empty salt removes the salt | partial | false for BLAKE2 (finding 7) |
| C51 | Collisions reduce to the compression function | proved | constructive, for all iterated classes |
| C52 | Absorbing after squeezing | proved | abstract machine extended by late bytes (`Spec/Late.lean`); sponge classes, while no block is completed (finding 12) |
| C53 | Memory contents before construction | proved | relation between two objects that agree on what has been written since the restart (`Proofs/Indep*.lean`); all classes, all histories (also beyond the limits of the conformance theorems) |
| C54 | `reset` forgets all data | proved | same relation: `update`, `squeeze`, `init` keep what `init` reads; all classes, all histories |
| C55 | Length extension | proved | functions that see only digest and length (`Spec/Extension.lean`); the digest is read back into the chaining value |
| C56 | Rounds are permutations | proved | injective on arrays of fixed length, hence onto (counting); steps are undone one by one, chi of Keccak and the S-boxes of Ascon and JH bit by bit; for the tables of Grøstl, Kupyna, Whirlpool, Streebog and ECHO `tools/gen_inverse.py` writes linear maps that take the table entries back to the bytes (`Proofs/PermRows.lean`), and the kernel checks them |
| C57 | Feed-forward, fixed points | proved | from the permutations: the argument with image zero under the permutation |
| C58 | Local arrays | proved | checked transcriptions (`Model/Locals`) with arrays of the declared sizes and arbitrary contents, per iteration; equal to the model by loop invariants that say which elements are already written (`Proofs/Locals`) |
| C59 | Pointers given to absorb | partial (false as stated) | `absorb_bytes` with addresses (`Model/Pointers`); by induction on the calls the result equals the fault that `Spec/Pointers` computes from addresses and lengths, or else the result without addresses |
| C60 | Sponge collisions are inner collisions | proved | from the functions of C40 and C48: equal final states, an injective permutation (C56) and injective addition of blocks give an inner collision before the last block (`Proofs/Inner`); for the converse the second block is computed |
| C61 | Variants start from different states | proved | chaining values of constructed objects (`Fresh`) are computed from `init`; the 64 initial values of SHA-512/t by evaluating the IV generation of the model in the kernel, all 64 of them; JH, LSH and Ascon: block functions are injective in the chaining value (C56), so the difference stays for every message; sponges: the suffix can be recovered from the padded string. Exception proved for Kupyna: same initial value, shorter digests are ends of longer ones |
| C62 | `size_t` with fewer than 64 bits | proved | `Model/Width`: `absorb_bytes` and the counters of BLAKE, BLAKE2, Streebog with products of type `size_t` modulo `2^z`; equal to the 64-bit model on every state the refinement relation admits (the fill position is at most the block size) if the data are shorter than `2^(z-3) - 512`; induction over histories. Failure beyond the limit proved for MD5 with `z = 32` |
| C63 | Thread safety | proved | `Model/Threads`: threads interleaved at single accesses to parts of objects; a call reads parts into memory of the thread (in `digest`: the copy), then, if it is not `const`, writes parts. Invariant for each thread: completed calls as in the run of this thread alone, plus how far the current call has come (`Proofs/Threads`); steps of others touch nothing it uses. Loss of an update by an explicit schedule (`Proofs/ThreadsRace`) |
| C64 | Collisions of tree hashes | proved | `Spec/Tree` names the nodes of K12, BLAKE2p, BLAKE2X; proof by cases: different final (root) inputs, or equal ones, then a leaf differs with equal chaining value (`Proofs/Tree`, on top of the lemmas of C51 and C60, now for any number of rounds). `Properties/SameOutput` is about objects: equal text means equal prescribed output. Examples: a real MD5 collision of Wang et al., checked by the kernel; variants without rounds. |
| C65 | Calls cut short by the environment | proved | `Model/Faults` has the `read` loop of `absorb(istr)` with the state bits and the `exceptions()` mask of the stream, iterators that throw, `std::copy` to an output iterator that throws, a string stream without memory, and the setters with each string operation failing or not. `Spec/Faults` says what complete call each of these amounts to. A history of calls cut short is reduced to a plain history (`plain_runs`), so every conformance theorem carries over. Modelled: libstdc++ and libc++ (`gcount()` is 0 after an exception of the stream buffer); the other reading of the standard is the flag `counted`. String operations are counted whether or not the string is short enough to need no allocation; the theorems hold for every pattern of failures, so also for those that can occur. |
| C66 | What addresses and branches tell | proved | `Model/Leak` transcribes the bodies of `Model/Locals` once more in a monad that records array indices, byte ranges, loop bounds, branch outcomes and shift counts that are not constants (`LeakVocab`: `Ev`). That nothing but the trace has been added is proved for every function (`f_erase`, `Proofs/Leak`). Constant traces: a relation between two runs (`Agree`), kept by every construct unless an index, a branch or a shift depends on data. Revealing traces: `Reveals`, the traces have the same length and, if they are equal, the inputs are; the first lookups after the data and the chaining value have been combined use every byte once as an index (`Proofs/Leak/Reveal`, `Reveal2`). `Tells` states this as a function from traces to inputs. Streebog: for a known count of processed bits. Not recorded: which array an index belongs to (determined by the position in the program), instructions inside one C++ expression on words (taken to need constant time), what a compiler makes of it, and code outside the transformation functions. |
| C67 | Traces of whole computations | proved | `Model/Leak/Run` and `Model/Leak/Hash` transcribe `absorb_bytes`, `update` and `final` in the monad of C66. `Twin` (`Proofs/Leak/Twin`) relates two runs and their models: if both models end, so do the traced runs, with the models' results and one trace, and the results are related again (`Same`: equal `pos` and `total`, arrays of equal length). The models end by the lemmas of C58 and C59, so the theorems have no hypothesis about that. Pieces shorter than 2^63 bytes. `Model/Leak/Xof` adds `init` and `squeeze` of BLAKE2, BLAKE2X, Skein, SHAKE, cSHAKE, KMAC, Esch and Ascon (`Properties/LeakXof`): two objects with keys and strings of the same lengths and any two messages of the same lengths leave one trace. `Model/Leak/Tree` and `Properties/LeakTree`: the same for BLAKE2sp, BLAKE2bp, K12, KT256 and M14, whose objects contain BLAKE2 or SHAKE objects (`SameRel`: the relation between two objects includes that between the objects inside). |
| C68 | Which function a call selects | partial | `Spec/Cpp` has a grammar of types and arguments, `Model/Overloads` the overload sets with deduction, conditions, ranks of conversions and the choice of the best function, `Model/Ctors` the constructors of all providers with their conditions. Proved by cases on the types that the outcome is that of a table made from the documentation (`AbsorbCalls`, `SqueezeCalls`, `DigestCalls`, `SetterCalls`, `docDefault`). False for `digest` into `char` buffers, the default constructor of JH and static Skein (findings 13, 22, 23). `Model/Calls`: string literals end at their first zero, integers lose their upper bits, `digest(array)` has no check of the size. |
| C69 | Differences spread as the wide trail strategy promises | proved | `Spec/Active` and `Spec/ActiveEcho` count differing bytes along rounds. `Proofs/Wide`: the fields are fields (`Field`), a matrix is MDS if no sum of columns has too many zeros; this is decided by elimination for all sets of rows and columns and the decision proved sound (`Mds`, `Fast`); the theorem on four rounds for any array, permutation of cells that spreads columns and mixing with a branch number (`Trail`), by induction any number of rounds (`Rounds`); then the rounds of each model are of this kind. For ECHO the theorem is used for words of 128 bits and for two rounds in each word. |
| C70 | The S-boxes inside the lookup tables | proved | `Spec/StreebogField` has the function of Perrin as a relation with three rules and the matrix; equality with the literals of RFC 6986 by powers and logarithms. `Spec/Differential` counts; the kernel computes all 65280 counters of an S-box as digits of large numbers, the method is proved sound (`Proofs/Wide/Ddt`). Injective linear functions keep the counters, hence the same for the tables of the code. |
| C71 | The text of the source files, run by an interpreter, computes the standards | proved | `tools/cpp2lean.py` parses the functions in /repo and writes `Cpp/Src`, one term per statement with its line number. `Cpp/Semantics` gives terms a meaning as functions on variables and arrays, `none` for whatever is undefined. `Cpp/Program` calls the member functions one after the other. Proved by a simulation: a step of the program for a step of `Model/Locals` (C58), loops by `while_rel` (`Proofs/Cpp/Steps`), then `absorb_bytes` for any transformation (`Proofs/Cpp/Absorb`), `final` (`Proofs/Cpp/Final`), and the refinements of C02–C05 and C18. Whirlpool (`Proofs/Cpp/Whirlpool`, `WhirlpoolHash`) moves its pointer `mp` from block to block, copies whole arrays of words with `memcpy`, and reads words through a `reinterpret_cast` of it. SHA-3 (`Proofs/Cpp/Sha3Round`, `Sha3`, `Sha3Hash`): the 61 statements of a round one after the other, `transform<R>(A)` in the place where it is called, `hs` and `rate` given as the constructors assign them. SHAKE and cSHAKE (`Proofs/Cpp/LeftEncode`, `ShakeInit`, `Shake`, `ShakeXof`): the loops of `left_encode` for any number, the block of strings in `init` with its six calls of `update` (a local `total` hides the member); then an invariant for the bytes taken so far goes through the four cases of `squeeze` and its loop, for any number of calls; an empty buffer after the last byte of a block is excluded (an `example` shows that it loses bytes, finding 6 for the text itself); strings below 2^61 bytes, whose lengths in bits fit `size_t`. `cshake_source` gives what the text computes for all of them, `cshake_source_regular` says that it is cSHAKE if the strings do not end with a block (finding 1). KMAC (`Cpp/Mac`, `Proofs/Cpp/RightEncode`, `Kmac`, `Properties/SourceMac`): the loops of `right_encode`, `squeeze` with both values of `XOF` around that of SHAKE. Ascon (`Proofs/Cpp/Ascon`, `AsconSqueeze`, `AsconInit`, `AsconRun`, `Properties/SourceAscon`): the two loops of `transform`, `init` with its branches on the type and its calls of `update` with the length in bits and the string, `squeeze` with the same invariant as in C25 for any number of calls. Esch (`Proofs/Cpp/EschSparkle`, `Esch`, `EschSqueeze`, `EschRun`, `Properties/SourceEsch`): `sparkle` for 6 and 8 branches, a function of its own that `transform` and `squeeze` call, `transform` with its local array, `squeeze` for the digest and for any number of calls; `H` has 16 words for the two hash functions and `N / 32` for the two extendable ones. `init` of SHA-512 calls `update` and `final` of the same object (`Class.own`); its string is given (`sha512Name`). The interpreter itself is tied to what the standard says is undefined by `load_inside`, `element_inside`, `copy_inside`, `shift_meaning`, `int_meaning`, `word_meaning`, `read_meaning`, `memcpy_meaning`. For SM3 the result is negative (`sm3_source_undefined`, finding 3): the text has no meaning for any message. Hypotheses: calls with less than 2^63 bytes; sizes of the arrays as declared; SHA-512 and Whirlpool below 2^61 bytes, which is where `total` stays below 2^64 bits. |
| C72 | The text of `clear` erases the arrays and strings of the object | proved | `tools/cpp2lean.py` writes `Cpp/Src/Clear`, with the number of bytes of each array from its declaration. `Erases` (`Properties/SourceClear`): from any arrays with these numbers of bytes the program ends with zeros in all of them. Proved for any list of `zero_memory` calls that names every array (`Proofs/Cpp/Clear`). `ErasesStrings` adds the strings of SHAKE, BLAKE2 and Skein and the three bytes of BLAKE2; proved statement by statement. Memory a string owns past its length is not expressed. The check that `zero_memory` is a loop over all bytes of the array is made by the translator on its text. An array of arrays (`msgexp` of LSH) is one array of its bytes. That the compiler keeps the writes (`volatile`) is not expressed; the string `Z` of Ascon-CXOF is a member, is not an array, and is left as it was (C45). |

## 6. Running the model

`python3 modeltest/run.py` writes a temporary Lean program that drives the model through the calls of test/test_vectors.hpp on the 95 files of
test vectors in /repo/test/testvectors, and compares. All 27,789 of the 27,793 vectors tried agree (`--per-file 0 --max-bytes 90000
--max-out 12000`, 13 minutes); the other four are messages of 1.4 and 24 megabytes for K12 and KT256. By the conformance theorems the specifications give
the same values. This is a test of the transcription, not part of a proof.

## 7. Wrong programs

`tools/mutate.py` applies an edit to a copy of the model, rebuilds and logs which theorems fail, in `seeded/LOG.jsonl`. The edits are in
`seeded/mutants/`: chosen ones, and random ones from `tools/genmutants.py` (constants, indices, operators, dropped updates).

## 8. Findings: where code and property disagree

Each is a theorem with a concrete witness, beside the partial theorem.

1. **cSHAKE, KMAC**: if the encoded function name and customization end exactly at a block boundary, `init` of shake_provider.hpp (lines 107-109) appends a
   whole block of zeros, which SP 800-185 does not. (The encoding of the KMAC key has the right test.)
2. **Streebog**: `addm` computes the carry of a word before adding the carry in; if the sum of the two words is 2^64-1 and there is a carry in, the carry out is
   lost. The digest differs from GOST R 34.11-2012 for such messages (witness included).
3. **SM3, LSH**: rotations by 0 or by at least the word width are undefined behaviour for every message (SM3) and in every construction (LSH). With machines that reduce
   shift counts the results are right. If over-wide shifts give zero, LSH is still right and SM3 is wrong.
4. **validate_hash_size** with a list never throws (it tests a pointer instead of comparing with the end), so `sha3(100)`, `blake(8)`, `streebog(7)`, ... construct;
   the digest is then undefined behaviour or not a standard's.
5. **reset(true)**: blake2bp and blake2sp lose the tree parameters: from then on each leaf and the top node are sequential BLAKE2, and the top node takes the
   key too. ascon_cxof keeps its customization.
6. **squeeze of zero bytes**: `squeeze(0, it)` and `hexsqueeze(0)` evaluate `&v[0]` of an empty vector (undefined). `squeeze(buf, 0)` finishes absorption and, at block ends,
   skips a block of output; the exact effect per class is proved.
7. **BLAKE2**: setting an empty salt or personalization does nothing, instead of removing an earlier one.
8. **BLAKE2X**: the largest documented sizes are rejected by the run-time constructors.
9. **BLAKE2** beyond 2^61 bytes: `total` counts bits in 64 bits and the byte counter of RFC 7693 is derived from it, so it is wrong from there on, and depends on how the
   message is split (outside the range of C12, which is below 2^60 bytes).
10. **ascon_cxof** does not enforce the limit of 2048 bits on the customization string of SP 800-232.
11. kupyna.hpp documents sizes 256 and 512 while any multiple of 8 is accepted; theorems cover all of them.
12. **absorb after squeeze** is neither rejected nor documented. In the Keccak and Esch classes the bytes go to the block buffer and move the position that `squeeze` shares
    with `absorb`, so that as many bytes of output are skipped; the bytes themselves are lost unless a block is completed (then the block, with remains of earlier
    contents, is absorbed). In the k12 family they are lost without any effect. In Ascon, BLAKE2X and Skein they alter the output.
13. **Buffers of `char`.** `digest(T* buf, len)` (hasher.hpp 324-331) passes `buf` to `final(unsigned char*)` without a cast, so it does not compile for the byte types
    `char` and `signed char` that it is documented for; `squeeze` and `absorb` do cast (`digest_char_buffer`, C68). `digest(buf)` for an array compiles, but takes it for an iterator and
    does not check its size (`digest_array_unchecked`).
14. **Null pointer** with length 0, as in `absorb(v.data(), v.size())` for an empty vector: it reaches `memcpy(m + pos, nullptr, 0)` (absorb_data.hpp line 37),
    which C++ before 2026 leaves undefined (`null_pointer`, C59).
15. **Misaligned reads.** `absorb_bytes` gives whole blocks to `transform` in place, and most `transform` functions read them through `uint32_t*` or `uint64_t*`. If the block boundary
    in the caller's memory is not a multiple of the word size, that is undefined; aligned memory does not help when the calls before had odd lengths. LSH and ECHO copy and are
    not affected. `set_salt` of BLAKE (blake_provider.hpp line 141) reads the salt in the same way (`*_pointers_partial`, `blake_salt_pointer_partial`, C59).
16. **32-bit `size_t`.** `absorb_bytes` adds `(bytes) * 8` to `total` after computing it as a `size_t` (absorb_data.hpp line 34). Where `size_t` has 32 bits, a call of 512 MiB or more
    loses the upper bits of the count, and the digest is wrong and depends on how the message was split. BLAKE, BLAKE2 and Streebog have further products of this kind in
    their block counters (`md5_wraps`, C62).
17. **Streams with exceptions.** `absorb(istr)` on a stream with `exceptions(failbit)` or `exceptions(eofbit)` always ends with an exception, as `read` at the end of the stream sets both
    bits; the characters of the last, incomplete buffer have been taken from the stream and are not absorbed. For a stream shorter than 65536 characters nothing is
    absorbed (`stream_exceptions_lose_tail`, `stream_exceptions_lose_all`, C65).
18. **Truncated hex strings.** `hexdigest` and `hexsqueeze` format into a `std::ostringstream` and do not look at its state. If it gets no memory, the string returned is a proper prefix of the
    hexadecimal digest, without any sign of failure (`hexdigest_truncated`, C65).
19. **KMAC needs memory to be cleared.** `clear` ends with `set_key("")`, which allocates a string of a whole block. `reset(true)` can therefore throw, and then leaves a
    key of zero bytes of the old padded length: the next `reset()` gives a working object whose result depends on the key only through its length. The destructor calls `clear`, so
    without memory it ends the program; this includes the copy in every `digest` (`kmac_failed_reset`, `kmac_destructor_needs_memory`, C65).
20. **Torn keys.** `set_key` of BLAKE2bp and BLAKE2sp copies the key to the root and then to each leaf. If memory runs out on the way, root and first leaves have the new key and the others
    the old one; the next `reset()` gives an object that computes a mixture (`blake2bp_torn_key`, `blake2sp_torn_key`, C65).
21. **Tables indexed by secrets.** Grøstl, Kupyna, Whirlpool, Streebog and ECHO look up tables of 256 words with bytes of the state. Someone who sees which elements are accessed (through
    a shared cache, say) learns the chaining value and the whole message, also where these are secret, as with a key that is hashed in front of a message. The other algorithms
    use no index, branch or shift count that depends on data. `addm` of Streebog in addition branches on the carries of a sum (`whirlpool_tells` and the like, C66).
22. **JH has a default size.** jh.hpp line 36 says "@defaultsize none", but the constructor of `jh_provider` has the default argument 512, so `jh h;` compiles (`jh_default_constructor`, C68).
23. **Static Skein takes a size and ignores it.** `static_size::skein512<256> h(512)` compiles and has 256 bits, as the constructor of `skein_provider` for fixed sizes has a
    parameter that it does not use (skein_provider.hpp 193-198). The other classes of `static_size` reject an argument at compile time (`static_skein_ignores_size`, C68).
    `static_size::X<0>` is the class `X`: for classes with a default size, `static_size::blake2b<0> h;` compiles and has that size (`static_zero`; the models of the static classes with
    size 0 reject it).
