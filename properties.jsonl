{"id": "C01", "title": "Splitting a message over absorb calls never changes the digest", "statement": "For every hash function of the library, feeding a message through any number of absorb(ptr,len) calls (including empty ones) gives the digest that one absorb call with the whole message gives.", "quantifier": "for all hashers, all messages, all partitions of the message into a finite sequence of (possibly empty) chunks each shorter than 2^63 bytes", "why_tests_cant": "A test fixes finitely many messages and split points; this ranges over every byte string and every way of cutting it, including cuts at every buffer-boundary phase and lengths far beyond what can be run.", "anchors": ["detail/absorb_data.hpp: absorb_bytes", "hasher.hpp: hasher::absorb", "algorithm/detail/*_provider.hpp: update/final"]}
{"id": "C02", "title": "MD5 conformance", "statement": "md5().absorb(M) digests to the RFC 1321 value of M, for messages of any length (the 64-bit length field wraps modulo 2^64 as the RFC prescribes).", "quantifier": "for all byte strings M, fed by any sequence of absorb calls", "why_tests_cant": "Agreement with the standard on all of the infinitely many messages cannot be sampled; padding has 64 phases and the length field 2^64 values.", "anchors": ["algorithm/detail/md5_provider.hpp: md5_provider::update/final/transform/FF/GG/HH/II", "algorithm/detail/constants/md5_constants.hpp"]}
{"id": "C03", "title": "SHA-1 conformance", "statement": "sha1().absorb(M) digests to the FIPS 180-4 SHA-1 value of M for every M shorter than 2^61 bytes.", "quantifier": "for all byte strings M of fewer than 2^61 bytes, fed by any sequence of absorb calls", "why_tests_cant": "As for C02.", "anchors": ["algorithm/detail/sha1_provider.hpp"]}
{"id": "C04", "title": "SHA-224 and SHA-256 conformance", "statement": "sha224() and sha256() compute FIPS 180-4 SHA-224/SHA-256 for every message shorter than 2^61 bytes.", "quantifier": "for all byte strings of fewer than 2^61 bytes, any absorb sequence", "why_tests_cant": "As for C02.", "anchors": ["algorithm/detail/sha2_provider.hpp: sha2_provider<uint32_t,...>"]}
{"id": "C05", "title": "SHA-384, SHA-512 and SHA-512/t conformance", "statement": "sha384(), sha512() and sha512(t) for every t divisible by 8 up to 512 compute the FIPS 180-4 functions (t=384 meaning SHA-384), including the standard's IV generation for general t, for every message shorter than 2^61 bytes.", "quantifier": "for all t in 8..512 with 8 | t, all byte strings shorter than 2^61 bytes, any absorb sequence", "why_tests_cant": "All t times all messages; published vectors exist for only a handful of t.", "anchors": ["algorithm/detail/sha2_provider.hpp: sha2_provider<uint64_t,...>::init/transform/final"]}
{"id": "C06", "title": "SHA-3 conformance", "statement": "sha3(n) for n in {224,256,384,512} computes the FIPS 202 function, i.e. pad10*1 with suffix 01 over Keccak-f[1600] given by theta, rho, pi, chi, iota.", "quantifier": "for all four sizes, all byte strings, any absorb sequence", "why_tests_cant": "Infinite message space; the permutation acts on 2^1600 states.", "anchors": ["algorithm/detail/sha3_provider.hpp: sha3_provider, sha3_functions::transform"]}
{"id": "C07", "title": "SHAKE conformance", "statement": "shake128/shake256 output is the FIPS 202 SHAKE stream of the absorbed message, for every message and every output length.", "quantifier": "for all byte strings and all sequences of nonzero squeeze lengths", "why_tests_cant": "Infinite message and output spaces.", "anchors": ["algorithm/detail/shake_provider.hpp: shake_provider::squeeze"]}
{"id": "C08", "title": "cSHAKE conformance", "statement": "cshake128/256 with function name N and customization S outputs the SP 800-185 cSHAKE stream of (N, S, M).", "quantifier": "for all N, S shorter than 2^61 bytes, all M, all nonzero squeeze sequences", "why_tests_cant": "The encoding of N and S has length-dependent corner cases (encoded prefix exactly filling a rate block) that vectors do not reach.", "anchors": ["algorithm/detail/shake_provider.hpp: shake_provider::init, left_encode"]}
{"id": "C09", "title": "KMAC conformance", "statement": "kmac128/256 and kmac128/256_xof compute the SP 800-185 KMAC and KMACXOF of (key, customization, message, output length).", "quantifier": "for all keys, customizations, messages, output sizes", "why_tests_cant": "As for C08.", "anchors": ["algorithm/detail/kmac_provider.hpp"]}
{"id": "C10", "title": "KangarooTwelve family conformance", "statement": "k12, kt128, kt256 and m14 output the KangarooTwelve (resp. KT256, MarsupilamiFourteen) stream of (M, S), including the tree mode for inputs longer than 8192 bytes.", "quantifier": "for all messages and customizations of any length", "why_tests_cant": "Tree mode has an unbounded number of leaves and its own leaf-boundary phases (8192).", "anchors": ["algorithm/detail/k12m14_provider.hpp"]}
{"id": "C11", "title": "BLAKE conformance", "statement": "blake(n), n in {224,256,384,512}, with any 16/32-byte salt or none computes the final-round BLAKE SHA-3 submission.", "quantifier": "for all messages shorter than 2^61 bytes and all legal salts", "why_tests_cant": "The counter/padding corner cases depend on the length modulo the block size and on whether the last block has message bits.", "anchors": ["algorithm/detail/blake_provider.hpp"]}
{"id": "C12", "title": "BLAKE2b/BLAKE2s conformance", "statement": "blake2b(n)/blake2s(n) with any legal salt, personalization and key computes BLAKE2 (RFC 7693 plus the parameter block of the BLAKE2 paper).", "quantifier": "for all n divisible by 8 in range, all legal parameters, all messages shorter than 2^60 bytes", "why_tests_cant": "Parameters x messages is infinite; lazily compressed last block has boundary phases.", "anchors": ["algorithm/detail/blake2_provider.hpp"]}
{"id": "C13", "title": "BLAKE2X conformance", "statement": "blake2xb/blake2xs (known output size) and blake2xb_xof/blake2xs_xof output the BLAKE2X stream of the message and parameters.", "quantifier": "for all supported output sizes, all messages, all squeeze sequences of nonzero lengths", "why_tests_cant": "Infinite message and output spaces.", "anchors": ["algorithm/detail/blake2_provider.hpp: squeeze, initX"]}
{"id": "C14", "title": "BLAKE2bp/BLAKE2sp conformance", "statement": "blake2bp(n)/blake2sp(n) computes the parallel tree hash of the BLAKE2 paper for all parameters.", "quantifier": "for all messages and legal parameters", "why_tests_cant": "Stripe distribution over the leaves has 512 phases.", "anchors": ["algorithm/detail/blake2p_provider.hpp"]}
{"id": "C15", "title": "Skein conformance", "statement": "skein256/512/1024(n) and the xof variants compute Skein 1.3 with optional key, nonce and personalization for every output size.", "quantifier": "for all messages, keys, nonces, personalizations, output lengths", "why_tests_cant": "Infinite spaces.", "anchors": ["algorithm/detail/skein_provider.hpp"]}
{"id": "C16", "title": "Groestl conformance", "statement": "groestl(n) computes Groestl (round-3 tweak) for all n divisible by 8 up to 512.", "quantifier": "for all messages shorter than 2^60 bytes, all n", "why_tests_cant": "Infinite message space; 16 kB of lookup tables.", "anchors": ["algorithm/detail/groestl_provider.hpp", "algorithm/detail/constants/groestl_constants.hpp"]}
{"id": "C17", "title": "JH conformance", "statement": "jh(n) computes JH (round-3 tweak).", "quantifier": "for all messages shorter than 2^61 bytes, all n", "why_tests_cant": "Infinite message space.", "anchors": ["algorithm/detail/jh_provider.hpp"]}
{"id": "C18", "title": "Whirlpool conformance", "statement": "whirlpool() computes ISO/IEC 10118-3 Whirlpool.", "quantifier": "for all messages shorter than 2^61 bytes", "why_tests_cant": "Infinite message space; table lookups.", "anchors": ["algorithm/detail/whirlpool_provider.hpp"]}
{"id": "C19", "title": "Kupyna conformance", "statement": "kupyna(256)/kupyna(512) compute DSTU 7564:2014.", "quantifier": "for all messages shorter than 2^61 bytes", "why_tests_cant": "Infinite message space; table lookups.", "anchors": ["algorithm/detail/kupyna_provider.hpp"]}
{"id": "C20", "title": "Streebog conformance", "statement": "streebog(256)/streebog(512) compute GOST R 34.11-2012.", "quantifier": "for all messages shorter than 2^61 bytes", "why_tests_cant": "The 512-bit checksum addition has a carry-propagation corner case of probability about 2^-64 per word: random or published vectors cannot reach it.", "anchors": ["algorithm/detail/streebog_provider.hpp: streebog_provider::addm"]}
{"id": "C21", "title": "SM3 conformance", "statement": "sm3() computes GB/T 32905-2016 SM3.", "quantifier": "for all messages shorter than 2^61 bytes", "why_tests_cant": "Infinite message space.", "anchors": ["algorithm/detail/sm3_provider.hpp"]}
{"id": "C22", "title": "LSH conformance", "statement": "lsh256(n)/lsh512(n) compute KS X 3262 LSH.", "quantifier": "for all messages, all n", "why_tests_cant": "Infinite message space.", "anchors": ["algorithm/detail/lsh_provider.hpp"]}
{"id": "C23", "title": "ECHO conformance", "statement": "echo(n) with optional 16-byte salt computes the ECHO SHA-3 submission.", "quantifier": "for all messages shorter than 2^61 bytes, all n, all legal salts", "why_tests_cant": "Infinite message space; counter corner cases.", "anchors": ["algorithm/detail/echo_provider.hpp"]}
{"id": "C24", "title": "Esch conformance", "statement": "esch(256), esch(384), esch256_xof and esch384_xof compute Esch/XOEsch of the SPARKLE submission.", "quantifier": "for all messages and nonzero squeeze sequences", "why_tests_cant": "Infinite spaces.", "anchors": ["algorithm/detail/esch_provider.hpp"]}
{"id": "C25", "title": "Ascon conformance", "statement": "ascon_hash, ascon_xof and ascon_cxof compute the NIST SP 800-232 functions (the precomputed initial states are the permuted standard IVs).", "quantifier": "for all messages, customizations, nonzero squeeze sequences", "why_tests_cant": "Infinite spaces.", "anchors": ["algorithm/detail/ascon_provider.hpp"]}
{"id": "C26", "title": "digest and hexdigest do not disturb the hasher", "statement": "Inserting digest/hexdigest calls anywhere in a history of calls changes no other output of that history.", "quantifier": "for all hash functions and all finite histories of absorb/digest/hexdigest/reset/set_* calls", "why_tests_cant": "Histories are unbounded.", "anchors": ["hasher.hpp: hasher::digest, hexdigest"]}
{"id": "C27", "title": "reset() restarts the computation and keeps the parameters", "statement": "After any history, reset() makes every later output equal to that of a newly constructed hasher with the same size and parameters.", "quantifier": "for all hashers, all histories before and after the reset", "why_tests_cant": "Needs absence of leaks from arbitrary prior state (stale buffers, counters, squeeze positions).", "anchors": ["hasher.hpp: hasher::reset", "algorithm/detail/*_provider.hpp: init"]}
{"id": "C28", "title": "reset(true) also clears the optional parameters", "statement": "After any history, reset(true) makes every later output equal to that of a newly constructed hasher of the same size with default parameters.", "quantifier": "for all hashers, all histories", "why_tests_cant": "As for C27.", "anchors": ["hasher.hpp: hasher::reset", "algorithm/detail/*_provider.hpp: clear"]}
{"id": "C29", "title": "Parameter setters", "statement": "After set_salt/set_key/set_nonce/set_personalization/set_customization/set_function_name the hasher behaves as a fresh hasher carrying the new value and the previously set other parameters: data absorbed before is dropped and the order in which different parameters are set is irrelevant.", "quantifier": "for all histories and parameter values", "why_tests_cant": "Histories and values are unbounded.", "anchors": ["algorithm/mixin/*.hpp", "algorithm/detail/*_provider.hpp: set_*"]}
{"id": "C30", "title": "Rejected parameters leave the hasher untouched", "statement": "A set_* call whose argument has an unsupported size throws std::runtime_error, and every later output equals that of the same history without the call.", "quantifier": "for all hashers with size-restricted parameters, all histories, all argument lengths", "why_tests_cant": "Unbounded histories.", "anchors": ["algorithm/mixin/blake_mixin.hpp", "algorithm/mixin/blake2_mixin.hpp", "algorithm/detail/blake_provider.hpp: set_salt", "algorithm/detail/blake2_provider.hpp: set_salt, set_personalization, set_key", "algorithm/detail/echo_provider.hpp: set_salt"]}
{"id": "C31", "title": "XOF output does not depend on how it is squeezed", "statement": "For every XOF, the concatenation of the outputs of any sequence of nonzero-length squeeze calls is the prefix of one stream that depends only on the absorbed bytes and the parameters.", "quantifier": "for all XOFs, all messages, all finite sequences of positive lengths", "why_tests_cant": "Unbounded output streams and partitions.", "anchors": ["hasher.hpp: hasher::squeeze", "algorithm/detail/shake_provider.hpp", "algorithm/detail/skein_provider.hpp", "algorithm/detail/blake2_provider.hpp", "algorithm/detail/esch_provider.hpp", "algorithm/detail/ascon_provider.hpp", "algorithm/detail/k12m14_provider.hpp", "algorithm/detail/kmac_provider.hpp"]}
{"id": "C32", "title": "A zero-length squeeze has no effect", "statement": "squeeze(buf, 0) changes no later output.", "quantifier": "for all XOFs, all histories", "why_tests_cant": "Histories are unbounded; the failing cases need a specific position in the stream.", "anchors": ["algorithm/detail/shake_provider.hpp: squeeze", "algorithm/detail/ascon_provider.hpp: squeeze", "algorithm/detail/skein_provider.hpp: squeeze", "algorithm/detail/blake2_provider.hpp: squeeze", "algorithm/detail/esch_provider.hpp: squeeze"]}
{"id": "C33", "title": "hexdigest and hexsqueeze encode the binary output", "statement": "hexdigest()/hexsqueeze(n) is exactly two lowercase hexadecimal digits per output byte, most significant first, so decoding it gives the digest/squeeze bytes.", "quantifier": "for all byte strings", "why_tests_cant": "All byte strings of all lengths.", "anchors": ["hasher.hpp: hexdigest, hexsqueeze", "detail/stream_width_fixer.hpp"]}
{"id": "C34", "title": "digest writes exactly the promised bytes", "statement": "digest(buf,len) throws std::runtime_error and writes nothing when len < size/8; otherwise it writes exactly the first size/8 bytes of buf and leaves the rest alone; digest(it) yields exactly size/8 bytes.", "quantifier": "for all hashers with supported sizes, all histories, all buffer lengths", "why_tests_cant": "All histories, sizes and buffer lengths.", "anchors": ["hasher.hpp: hasher::digest", "algorithm/detail/*_provider.hpp: final"]}
{"id": "C35", "title": "Constructors reject unsupported sizes", "statement": "Constructing a hasher with a digest size outside the documented set throws std::runtime_error; with a documented size it does not.", "quantifier": "for all 2^64 values of size_t and all hash functions with runtime size", "why_tests_cant": "2^64 inputs per algorithm.", "anchors": ["detail/validate_hash_size.hpp: validate_hash_size", "algorithm/detail/*_provider.hpp constructors", "README.md: Supported algorithms"]}
{"id": "C36", "title": "Absorbing a stream absorbs its remaining contents", "statement": "absorb(istream) has the effect of absorb(ptr,len) on all bytes that remain in the stream, whatever their number relative to the 65536-byte read buffer.", "quantifier": "for all stream contents", "why_tests_cant": "Unbounded stream lengths.", "anchors": ["hasher.hpp: absorb(std::basic_istream<T>&)"]}
{"id": "C37", "title": "All absorb overloads agree", "statement": "absorb of a pointer range, std::array, string, iterator range or stream holding the same bytes leaves the hasher in states no later output can tell apart.", "quantifier": "for all byte strings and all later histories", "why_tests_cant": "Unbounded.", "anchors": ["hasher.hpp: absorb overloads"]}
{"id": "C38", "title": "No history of calls accesses memory out of bounds", "statement": "For hashers constructed with supported sizes, no history of absorb/digest/squeeze/reset/set_* calls reads or writes outside the library's buffers or makes a bounded copy with an underflowing length.", "quantifier": "for all hashers, all histories (including absorb after squeeze)", "why_tests_cant": "Unbounded histories; a sanitizer only sees the executed ones.", "anchors": ["detail/absorb_data.hpp: absorb_bytes", "algorithm/detail/*_provider.hpp"]}
{"id": "C39", "title": "No history executes an undefined shift", "statement": "No computation shifts a w-bit word by w or more positions.", "quantifier": "for all hashers, all histories", "why_tests_cant": "Compilers hide it on common targets; tests pass regardless.", "anchors": ["detail/functions.hpp: rotate_left, rotate_right", "algorithm/detail/sm3_provider.hpp", "algorithm/detail/lsh_provider.hpp"]}
{"id": "C40", "title": "Different messages give different padded inputs", "statement": "For every hash function the bytes and counters handed to the compression function or permutation determine the message (and, where the algorithm encodes them, the parameters).", "quantifier": "for all pairs of messages shorter than 2^61 bytes", "why_tests_cant": "Pairs of messages.", "anchors": ["algorithm/detail/*_provider.hpp: final"]}
{"id": "C41", "title": "Length encodings are correct and injective", "statement": "left_encode and right_encode produce the SP 800-185 encodings (resp. the KangarooTwelve length_encode) of every 64-bit value, and different values have different encodings.", "quantifier": "for all 2^64 values", "why_tests_cant": "2^64 inputs.", "anchors": ["algorithm/detail/shake_provider.hpp: left_encode", "algorithm/detail/k12m14_provider.hpp: right_encode"]}
{"id": "C42", "title": "BLAKE2bp/sp results do not depend on the OpenMP schedule", "statement": "Whatever order or interleaving the parallel loops over the leaves run in, the resulting leaf states are the same.", "quantifier": "for all interleavings of the per-leaf operations", "why_tests_cant": "Schedules cannot be enumerated by running.", "anchors": ["algorithm/detail/blake2p_provider.hpp: transform (omp parallel for)"]}
{"id": "C43", "title": "Compile-time and runtime sizes agree", "statement": "static_size::X<n>() and X(n) give the same outputs on every history.", "quantifier": "for all algorithms with both forms, all supported n, all histories", "why_tests_cant": "Unbounded histories.", "anchors": ["algorithm/detail/*_provider.hpp constructors", "detail/traits.hpp", "algorithm/*.hpp static_size"]}
{"id": "C44", "title": "Copies are independent", "statement": "After copying a hasher, operations on one copy never influence outputs of the other; interleaved histories on two hashers give what the separate histories give.", "quantifier": "for all pairs of histories and all interleavings", "why_tests_cant": "Interleavings cannot be enumerated by tests.", "anchors": ["hasher.hpp: hasher (implicit copy)", "README.md: Thread Safety"]}
{"id": "C45", "title": "Clearing wipes message and key material", "statement": "After clear() (run by reset(true) and by the destructor) every buffer, chaining value and parameter field of the provider holds zeros, whatever the history.", "quantifier": "for all histories", "why_tests_cant": "Unbounded histories.", "anchors": ["algorithm/detail/*_provider.hpp: clear, destructors", "detail/functions.hpp: zero_memory"]}
{"id": "C46", "title": "Behaviour at the 2^64-bit counter limit", "statement": "Digest results are those of the standard up to the stated length limit, and beyond it the implementation's 64-bit bit counter is what decides: MD5 still conforms, algorithms with wider standard counters do not.", "quantifier": "for all message lengths", "why_tests_cant": "Messages of 2^61 bytes cannot be hashed in a test.", "anchors": ["algorithm/detail/*_provider.hpp: total"]}
{"id": "C47", "title": "cSHAKE without name and customization is SHAKE", "statement": "cshake with empty function name and customization gives SHAKE output.", "quantifier": "for all messages and squeeze sequences", "why_tests_cant": "Unbounded.", "anchors": ["algorithm/detail/shake_provider.hpp: init, squeeze"]}
{"id": "C48", "title": "Different parameters are absorbed differently", "statement": "For cSHAKE and KMAC, different (function name, customization[, key], message) tuples feed different byte strings to the sponge.", "quantifier": "for all pairs of tuples", "why_tests_cant": "Pairs of unbounded strings.", "anchors": ["algorithm/detail/shake_provider.hpp: init", "algorithm/detail/kmac_provider.hpp: init"]}
{"id": "C49", "title": "Documented size range of BLAKE2X", "statement": "blake2xb(n)/blake2xs(n) accept every byte-multiple output size, as documented ('arbitrary').", "quantifier": "for all sizes", "why_tests_cant": "2^64 inputs.", "anchors": ["algorithm/detail/blake2_provider.hpp constructor", "README.md: Supported algorithms"]}
{"id": "C50", "title": "Setting an empty salt or personalization removes it", "statement": "set_salt of a zero-length value leaves the hasher as if no salt had ever been set.", "quantifier": "for all histories", "why_tests_cant": "Unbounded histories.", "anchors": ["algorithm/detail/blake2_provider.hpp: set_salt, set_personalization", "algorithm/detail/blake_provider.hpp: set_salt", "algorithm/detail/echo_provider.hpp: set_salt"]}
{"id": "C51", "title": "A collision of digests is a collision of the compression function", "statement": "If two different messages (or different parameters with messages) shorter than 2^61 bytes have the same digest, then in the computation of the two digests there are two calls of the compression function with different arguments and the same result, or two different final chaining values that the output step maps to the same digest; the latter is impossible where the digest is the whole chaining value.", "quantifier": "for all pairs of messages and parameters, all Merkle-Damgard style hash functions of the library", "why_tests_cant": "Pairs of messages; collisions cannot be sampled.", "anchors": ["algorithm/detail/*_provider.hpp: update, final (padding and length)", "detail/absorb_data.hpp"]}
{"id": "C52", "title": "Data absorbed after squeezing has begun is lost in the sponge classes", "statement": "In shake, cshake, kmac_xof, k12, kt256, m14, esch256_xof and esch384_xof, absorb() after squeeze() is accepted. As long as the data do not complete a block of the buffer, no byte of them influences anything the caller sees later: in the k12 family they have no effect at all, in the other classes each byte makes the object pass over one byte of output. The histories around it (parameters, resets, further squeezes) stay as specified, without undefined behaviour.", "quantifier": "for all histories of calls with absorbs after squeezes that do not complete a block, all sources and lengths, all parameters", "why_tests_cant": "The histories and the late bytes are unbounded; tests follow the documented order absorb, then squeeze.", "anchors": ["hasher.hpp: absorb, squeeze", "detail/absorb_data.hpp", "algorithm/detail/shake_provider.hpp: update, squeeze", "algorithm/detail/k12m14_provider.hpp: update, squeeze", "algorithm/detail/esch_provider.hpp: update, squeeze"]}
{"id": "C53", "title": "What was in memory before construction never matters", "statement": "Two objects of the same class with the same constructor arguments, placed on memory with different contents, show the caller the same results for the same calls: no member is read before it has been written, in a way that a result depends on it.", "quantifier": "for all classes, all pairs of memory contents, all histories of calls including data absorbed after squeezing, messages of any length, wrong parameters, reset(true)", "why_tests_cant": "Pairs of memory contents times unbounded histories; stale bytes of a buffer show only in particular lengths and orders of calls.", "anchors": ["algorithm/detail/*_provider.hpp: constructors, init, update, squeeze, final, clear", "detail/absorb_data.hpp", "hasher.hpp"]}
{"id": "C54", "title": "reset forgets everything but the parameters", "statement": "After reset() or reset(true) an object shows the caller the same results as an object on which only the parameter setters and reset(true) were called before; if there were none of these, reset() makes the object indistinguishable from a new one. Nothing of absorbed data, of squeezed positions or of digests is left.", "quantifier": "for all classes, all histories before and after the reset, including data absorbed after squeezing and messages of any length, all memory contents", "why_tests_cant": "Unbounded histories before the reset; a member that init does not set shows only after particular histories.", "anchors": ["hasher.hpp: reset", "algorithm/detail/*_provider.hpp: init, clear", "algorithm/mixin/*.hpp"]}
{"id": "C55", "title": "Length extension of the plain Merkle-Damgard classes", "statement": "For MD5, SHA-1, SHA-256, SHA-512, SM3 and Whirlpool the digest of a message, together with its length, determines the digest of that message followed by its padding and any further bytes: it is computed by continuing the iteration from the digest, without the message. Hence two messages of the same length with the same digest still collide after appending their padding and the same bytes.", "quantifier": "for all messages, all continuations, all memory contents before construction", "why_tests_cant": "An equation between digests for all pairs of messages and continuations of any length.", "anchors": ["algorithm/detail/md5_provider.hpp", "algorithm/detail/sha1_provider.hpp", "algorithm/detail/sha2_provider.hpp", "algorithm/detail/sm3_provider.hpp", "algorithm/detail/whirlpool_provider.hpp"]}
{"id": "C56", "title": "The round functions are permutations", "statement": "The rounds of every keyed or unkeyed permutation in the library map different states to different states and reach every state: Keccak-p with up to 24 rounds, Ascon-p, Sparkle384 and Sparkle512, Threefish with three block sizes, the rounds of BLAKE and BLAKE2, P and Q of Groestl, both permutations of Kupyna, the ciphers of Whirlpool and Streebog, the rounds of ECHO; and for each block the whole compression functions of JH and LSH.", "quantifier": "for all states, all keys, tweaks, blocks, salts and counters", "why_tests_cant": "Injectivity and surjectivity on sets of up to 2^2048 states; a wrong index that merges two states shows in no particular test.", "anchors": ["algorithm/detail/sha3_provider.hpp: transform", "algorithm/detail/ascon_provider.hpp", "algorithm/detail/esch_provider.hpp: sparkle", "algorithm/detail/skein_provider.hpp: G8", "algorithm/detail/blake_provider.hpp", "algorithm/detail/blake2_provider.hpp", "algorithm/detail/groestl_provider.hpp", "algorithm/detail/kupyna_provider.hpp", "algorithm/detail/whirlpool_provider.hpp", "algorithm/detail/streebog_provider.hpp", "algorithm/detail/echo_provider.hpp", "algorithm/detail/jh_provider.hpp", "algorithm/detail/lsh_provider.hpp"]}
{"id": "C57", "title": "Feed-forward and fixed points of the compression functions", "statement": "For each block the compression functions of MD5, SHA-1, SHA-2, SM3, Groestl and Kupyna send the chaining value through a permutation and combine the result with the chaining value (Davies-Meyer); for each chaining value those of Whirlpool, Streebog and Skein do so with the block (Matyas-Meyer-Oseas, Miyaguchi-Preneel). Hence there is exactly one argument that is left as it is: for each block exactly one chaining value that is its own successor, or for each chaining value exactly one block that becomes the next chaining value.", "quantifier": "for all blocks, all chaining values", "why_tests_cant": "Existence and uniqueness over all chaining values; no test knows the fixed points.", "anchors": ["algorithm/detail/md5_provider.hpp: transform", "algorithm/detail/sha1_provider.hpp: transform", "algorithm/detail/sha2_provider.hpp: transform", "algorithm/detail/sm3_provider.hpp: transform", "algorithm/detail/groestl_provider.hpp: transform, outputTransform", "algorithm/detail/kupyna_provider.hpp: transform, outputTransform", "algorithm/detail/whirlpool_provider.hpp: transform", "algorithm/detail/streebog_provider.hpp: gN", "algorithm/detail/skein_provider.hpp: transform"]}
{"id": "C58", "title": "No access outside local arrays, nothing read before it is written", "statement": "In the transformation functions of all providers and in the other functions that use local arrays (left_encode, right_encode, bytepad, init of cSHAKE, SHA-512/t, JH and LSH, final of LSH, keys of BLAKE2, tree hashing of k12), every index into a local array, a member array or a table is below its declared size, and the result does not depend on what the local arrays contained before they were written: for all contents the functions give the same result, the one of the model on which the other properties are proved.", "quantifier": "for all inputs, all states with arrays of the declared sizes, all initial contents of the local arrays in every call and iteration", "why_tests_cant": "Reads of uninitialised or neighbouring stack memory usually go unnoticed: the results can be right by accident. Sanitizers see the executions they are given.", "anchors": ["algorithm/detail/*_provider.hpp: transform", "algorithm/detail/shake_provider.hpp: left_encode, right_encode, init", "algorithm/detail/kmac_provider.hpp: bytepad, squeeze", "algorithm/detail/k12_provider.hpp: transform, squeeze", "algorithm/detail/blake2_provider.hpp: init", "algorithm/detail/lsh_provider.hpp: init, final", "algorithm/detail/jh_provider.hpp: init", "algorithm/detail/sha2_provider.hpp: init"]}
{"id": "C59", "title": "Pointers given to absorb: alignment and null", "statement": "absorb(ptr, len) is defined for every pointer to len readable bytes whatever its address, and for a null pointer with len = 0. This is false of the code: whole blocks are read in place through pointers to 32- or 64-bit words, and the rest is copied with memcpy even if it is empty. Exact statement: a sequence of calls has undefined behaviour because of a pointer exactly when some call passes a null pointer, or when some call reaches beyond the next block boundary by at least a block (and one byte more for BLAKE2, Skein and Esch) and the address of that boundary in the caller's memory is not a multiple of the word size; otherwise the result does not depend on the addresses. LSH and ECHO copy the blocks and have no alignment requirement. The salt of BLAKE has the same problem.", "quantifier": "for all sequences of calls with any addresses and lengths below 2^63, all states an object can have after any number of bytes", "why_tests_cant": "On x86 misaligned word reads work until the compiler uses aligned vector instructions; test vectors are usually passed in one call from aligned memory. Which combination of earlier lengths and address fails is a statement about all splits.", "anchors": ["hasher.hpp: absorb", "detail/absorb_data.hpp: absorb_bytes", "algorithm/detail/*_provider.hpp: transform", "algorithm/detail/blake_provider.hpp: set_salt"]}
{"id": "C60", "title": "A collision of a sponge class is an inner collision", "statement": "If two different inputs (messages, or parameters and messages) of SHA-3, SHAKE, cSHAKE, KMAC, Ascon or Esch have the same output (the first n bytes for the extendable functions), then different sequences of blocks that occur in the computation lead to states that agree in the inner part (the capacity), or different final states have the same output. Conversely, for two block strings with the same inner part and any next block there is a next block for the other one, so that all messages that continue in the same way have the same output. In particular messages shorter than a block never lead to the same state.", "quantifier": "for all messages, parameters and output lengths, for all pairs of block strings with an inner collision and all continuations", "why_tests_cant": "A flaw in the permutation (not injective) or in the way blocks are added (a block does not reach the state, padding or constants of the last block can be compensated) makes collisions that no test vector contains. The claim is about all pairs of messages.", "anchors": ["algorithm/detail/sha3_provider.hpp: transform, final", "algorithm/detail/shake_provider.hpp", "algorithm/detail/kmac_provider.hpp", "algorithm/detail/ascon_provider.hpp: transform, squeeze", "algorithm/detail/esch_provider.hpp: transform, squeeze"]}
{"id": "C61", "title": "Variants of a function start from different states", "statement": "Constructed objects of different variants of a function (digest sizes of SHA-2, SHA-512/t for every t, Groestl, ECHO, Streebog, BLAKE, BLAKE2; fixed and extendable BLAKE2; the three Ascon functions) have different chaining values whatever was in memory. For JH, LSH and Ascon the chaining values remain different after absorbing any common message. SHA-3, SHAKE, cSHAKE, KMAC, KMACXOF and the nodes of KangarooTwelve never give the sponge the same string, whatever the messages. Kupyna is the exception: as the standard prescribes, a shorter digest is the end of a longer one.", "quantifier": "for all pairs of different accepted sizes and kinds, all memory contents before construction, all messages", "why_tests_cant": "A missing break in a switch over sizes, a size that is not put into the initial value, or a wrong suffix makes the digest of one variant a truncation of the digest of another; test vectors cover a few sizes, SHA-512/t alone has 64.", "anchors": ["algorithm/detail/sha2_provider.hpp: init", "algorithm/detail/groestl_provider.hpp: init", "algorithm/detail/jh_provider.hpp: init", "algorithm/detail/lsh_provider.hpp: init", "algorithm/detail/echo_provider.hpp: init", "algorithm/detail/streebog_provider.hpp: init", "algorithm/detail/blake_provider.hpp: init", "algorithm/detail/blake2_provider.hpp: init", "algorithm/detail/ascon_provider.hpp: init", "algorithm/detail/shake_provider.hpp", "algorithm/detail/kupyna_provider.hpp: init"]}
{"id": "C62", "title": "size_t of fewer than 64 bits: the same digests for calls of less than an eighth of its range", "statement": "On a machine whose size_t has z bits, 32 <= z <= 64, the fixed-output classes that count bits (md5, sha1, sha224, sha256, sha512/sha384, sm3, whirlpool, groestl, jh, kupyna, echo, streebog, blake, blake2b, blake2s) compute the same function as with 64 bits for every history in which no single absorb of a pointer, an array or a string has 2^(z-3) - 512 bytes or more; streams and iterator ranges may have any length. The bound is needed: with z = 32, md5 given 2^29 bytes in one call counts no bits at all, given the same bytes in two calls it counts 2^32.", "quantifier": "for all z from 32 to 64, all digest sizes, all memory contents before construction, all histories with pieces below the limit; all messages of 2^29 bytes for the failure", "why_tests_cant": "Products of type size_t (`bytes * 8`, `(blk + 1) * sizeof(M) * 8`, `blk * 512`) wrap only on 32-bit machines and only for half a gigabyte in one call; tests run on 64-bit machines with short messages.", "anchors": ["detail/absorb_data.hpp: absorb_bytes", "algorithm/detail/blake_provider.hpp: transform", "algorithm/detail/blake2_provider.hpp: transform", "algorithm/detail/streebog_provider.hpp: transform", "algorithm/detail/echo_provider.hpp: transform", "hasher.hpp: absorb"]}
{"id": "C63", "title": "Thread safety: distinct objects, const calls, no unsynchronised sharing", "statement": "README.md, 'Thread Safety': (1) threads that use distinct hasher objects, and threads that only call const functions (digest, hexdigest) of a shared object, do not influence each other: in every order of their single accesses to parts of the objects every thread sees exactly what it would see alone, the objects a thread modifies end up as if it were alone, objects of which only const functions are called keep their contents, every thread given enough steps finishes, and there is no data race. In particular any number of threads asking one object of a conforming class for its digest get the digest of the standard. (2) Two threads calling functions that are not const on one object without synchronization: there is an order of accesses with a data race in which both calls return normally and one of them has had no effect.", "quantifier": "All classes (hash functions and XOFs, any number of objects of different classes), any number of threads, all programs of calls keeping to the rules, all interleavings of their accesses, all divisions of objects into parts and of calls into accesses, all object contents and stack contents.", "why_tests_cant": "A race shows up in one interleaving among astronomically many; tests run a few, and tools such as TSan judge only the executions that happened.", "anchors": ["README.md:297-303", "hasher.hpp:324-331", "hasher.hpp:349-355", "hasher.hpp:372-378", "hasher.hpp:385-394"]}
{"id": "C64", "title": "A collision of a tree hash is a collision of a node", "statement": "If KangarooTwelve, KT256 or MarsupilamiFourteen give the same n bytes for different (customization, message), then among the sponge calls of the two computations (single node, final node, leaves) there are two different ones, used with the same number of output bytes, with the same output, containing an inner collision of the sponge or ending in different states; conversely two chunks with the same chaining value give strings with the same output. For BLAKE2bp and BLAKE2sp equal digests for different (key, salt, personalization, message) mean a collision of the compression function in the two roots or in two leaves with the same number, or roots that differ only behind the digest; for BLAKE2X a collision of the compression function in the root hashes, or different root hashes and in every output block a collision or agreeing truncations. Two objects of any conforming class that print the same have absorbed data for which the standard prescribes the same output, so all collision statements (C51, C60, C64) are about what objects print.", "quantifier": "for all pairs of parameters and messages (K12: total length below 2^64), all numbers of rounds, all digest sizes, all numbers of leaves; for objects: all histories and memory contents", "why_tests_cant": "A missing domain byte, a chunk count or node offset that is not hashed, or a leaf that forgets its last-node flag makes different trees collide although every test vector is right.", "anchors": ["algorithm/detail/k12_provider.hpp: update, squeeze", "algorithm/detail/blake2_provider.hpp: init, squeeze", "algorithm/detail/blake2p_provider.hpp: init, final", "hasher.hpp: hexdigest, hexsqueeze"]}
{"id": "C65", "title": "Calls cut short by the environment", "statement": "When a call is cut short by something outside the library (a stream in any state, with any exceptions() mask or with a stream buffer that throws; an input or output iterator that throws; memory that runs out in a setter, in digest or in hexdigest), the object is as if another, complete call had been made: a setter or digest that fails changes nothing, absorb has absorbed what was read before, squeeze has advanced by all it was asked for; every later call shows what that predicts. Exceptions, each with its exact behaviour: with exceptions(failbit) or exceptions(eofbit) absorb(istr) always throws and loses what follows the last whole buffer; hexdigest and hexsqueeze return a truncated string without an exception when their string stream gets no memory; reset(true) of KMAC and its destructor need memory, and if there is none leave a key of zeros or end the program; set_key of BLAKE2bp and BLAKE2sp that fails at leaf j leaves the new key in the root and the first j leaves only.", "quantifier": "for all classes, all histories of calls with any of them cut short anywhere, all streams (contents, state bits, exception mask, point of failure), all patterns of failing string operations, all memory contents before construction", "why_tests_cant": "Failures of the environment are not produced by test vectors, and the number of points at which a history can be interrupted is unbounded.", "anchors": ["hasher.hpp: absorb(std::basic_istream), absorb(IT, IT), digest(OI), squeeze(len, OI), hexdigest, hexsqueeze, reset", "algorithm/mixin/*.hpp", "algorithm/detail/kmac_provider.hpp: bytepad, set_key, clear, destructor", "algorithm/detail/blake2p_provider.hpp: set_key", "detail/stream_width_fixer.hpp"]}
{"id": "C66", "title": "What addresses and branches tell", "statement": "For MD5, SHA-1, SHA-2, SM3, Keccak (SHA-3, SHAKE, cSHAKE, KMAC, K12, M14), BLAKE, BLAKE2, Skein, LSH, Esch, Ascon and JH, the sequence of array indices, byte ranges, loop bounds, branch outcomes and variable shift counts in the transformation function is the same for all data, all chaining values and all contents of local arrays; it depends only on the number of blocks and on public parameters (hash size, last block or not). For Groestl, Kupyna, Whirlpool, Streebog and ECHO the opposite holds: from that sequence the chaining value and all the bytes of the blocks can be computed.", "quantifier": "for all numbers of blocks, all data, all states with arrays of the declared sizes, all initial contents of local arrays", "why_tests_cant": "A test sees results, not the addresses used on the way; that two traces agree for all pairs of inputs is a statement about pairs of executions.", "anchors": ["algorithm/detail/*_provider.hpp: transform and the functions it calls", "algorithm/detail/constants/*.hpp: tables indexed by data"]}
{"id": "C67", "title": "Traces of whole computations", "statement": "For the algorithms whose transformation leaves the same trace for all data (C66), the trace of a whole computation - several calls of absorb, then digest - with the accesses and branches of update, of the buffering in absorb_bytes and of the padding and output in final, depends only on the lengths of the pieces and on the public members (hash size, position, counter), not on the bytes absorbed, nor on the chaining value, nor on what was in the memory of local arrays. For the classes with a key or other strings and for those with squeeze this includes init, and any calls of squeeze: the trace then depends also on the lengths of the strings and on the sizes asked for, but not on the key, salt, nonce, personalization or customization.", "quantifier": "for all lists of piece lengths, all contents of the pieces, all states with arrays of the declared sizes, all initial contents of local arrays", "why_tests_cant": "The claim is about pairs of executions on all inputs of equal length; a branch that depends on data (such as on the last byte of a block, or a skipped zero byte in a copy) shows in no digest.", "anchors": ["detail/absorb_data.hpp: absorb_bytes", "algorithm/detail/*_provider.hpp: init, update, squeeze, final", "hasher.hpp: absorb, digest, squeeze"]}
{"id": "C68", "title": "Which function a call selects", "statement": "For every class and all argument types, a call of absorb, squeeze, digest or a setter selects the overload that the documentation of hasher names for these types, is never ambiguous, and the selected body compiles: byte types are char, signed char, unsigned char and std::byte; digest exists exactly in hash functions and squeeze exactly in extendable output functions; a default constructor exists exactly for the classes with a documented default size and chooses it; a constructor with a size exists exactly for the classes with several sizes and gives the size asked for.", "quantifier": "for all lists of arguments over a recursive grammar of types (pointers, arrays, strings, streams, iterators, arithmetic types, classes), all value categories, all versions of the language, all classes and sizes", "why_tests_cant": "Tests contain only calls that compile. That a call is rejected, or selected but not compilable, or bound to another function than meant, shows only for types nobody tried; there are infinitely many.", "anchors": ["hasher.hpp: constructors, absorb, squeeze, digest (enable_if conditions)", "detail/traits.hpp: is_byte, is_xof", "algorithm/mixin/*.hpp: setters", "algorithm/detail/*_provider.hpp: constructors"]}
{"id": "C69", "title": "Differences spread as the wide trail strategy promises", "statement": "In the rounds of Groestl (P and Q, both sizes), Kupyna (the permutation with exclusive or), WHIRLPOOL (state and key), Streebog (state and key) and ECHO, as computed by the lookup tables of the code: for any two different states and any number n of rounds with any constants or keys, the number of S-boxes with different inputs is at least 81 for every four rounds, 9 for two more and 1 for one more (in ECHO 125, 25 and 5).", "quantifier": "for all pairs of different states, all numbers of rounds, all round constants, keys, salts and counters", "why_tests_cant": "The bound speaks about all 2^1024 and more pairs of states; a wrong shift of one row or one wrong matrix entry leaves almost all pairs above the bound and only the test vectors for one message would differ, not the bound.", "anchors": ["algorithm/detail/groestl_provider.hpp: roundP, roundQ", "algorithm/detail/kupyna_provider.hpp: G, roundP", "algorithm/detail/whirlpool_provider.hpp: G, transform", "algorithm/detail/streebog_provider.hpp: lps, lps_block", "algorithm/detail/echo_provider.hpp: sub_words, shift_rows, mix_columns"]}
{"id": "C70", "title": "The S-boxes inside the lookup tables", "statement": "Streebog's substitution is the function x -> TKlog(x) of Perrin and its linear transformation a matrix over GF(256), and the eight tables of the code are the products of the two. In each table of Groestl, ECHO, Kupyna, WHIRLPOOL and Streebog the greatest number of inputs x for which the entries for x and x xor a differ by b, a not zero, is 4 (Groestl, ECHO) or 8 (the others).", "quantifier": "for all bytes, all tables, all input differences and all output differences of 32 or 64 bits", "why_tests_cant": "Digests depend on all entries of all tables, so one wrong entry shows in a test, but not that the entries are those of a substitution with the claimed structure and resistance: this is a statement on all 65280 differences of each table and on the origin of the numbers.", "anchors": ["algorithm/detail/constants/streebog_constants.hpp: T", "algorithm/detail/constants/groestl_constants.hpp: T", "algorithm/detail/constants/kupyna_constants.hpp: T", "algorithm/detail/constants/whirlpool_constants.hpp: T", "algorithm/detail/constants/echo_constants.hpp: T"]}
{"id": "C71", "title": "The text of the source files, run by an interpreter, computes the standards", "statement": "The member functions init, update, final and transform of the MD5, SHA-1, SHA-2, SHA-3 and Whirlpool providers, left_encode, right_encode, init, update and squeeze of the SHAKE provider, squeeze of the KMAC provider, transform, init, update and squeeze of the Ascon provider, and sparkle, transform, init, update and squeeze of the Esch provider, together with absorb_bytes, byteswap and the rotations, translated mechanically statement by statement into a syntax tree and run by an interpreter for the part of C++ they use (integer promotions and conversions, wrapping unsigned and trapping signed arithmetic, bounds of every array, uninitialized variables, aliasing of words and bytes), never do anything undefined and leave the digest of the standard in the output buffer (for SHAKE, cSHAKE, KMACXOF, Ascon-XOF128, Ascon-CXOF128, XOEsch256 and XOEsch384: consecutive pieces of the output in any number of buffers that are not empty), however the message is divided and whatever the object and the stack contained before. For cSHAKE and KMAC the strings are any below 2^61 bytes, and where their encoding ends with a block the output is that of the encoding followed by a block of zeros (see C08). For SHA-512 this includes init, which for most digest sizes hashes a name with the object itself. The text of SM3 has no meaning for any message, because it shifts a 32-bit word by 32 bits.", "quantifier": "for all messages, all divisions into calls of update with less than 2^63 bytes each, all initial contents of the object and of the local arrays, and all bounds on loop iterations beyond the number needed", "why_tests_cant": "The other properties are about a model written by hand from the source text. A slip in the transcription of a rarely executed line, of a conversion or of an undefined operation would be in the model only or in the code only. This property is about the text itself, with a meaning for each construct of the language, for all inputs.", "anchors": ["algorithm/detail/md5_provider.hpp: md5_provider", "algorithm/detail/sha1_provider.hpp: sha1_provider", "algorithm/detail/sha2_provider.hpp: sha2_provider", "algorithm/detail/whirlpool_provider.hpp: whirlpool_provider", "algorithm/detail/sha3_provider.hpp: sha3_provider, sha3_functions", "algorithm/detail/shake_provider.hpp: left_encode, right_encode, init, update, squeeze", "algorithm/detail/kmac_provider.hpp: squeeze", "algorithm/detail/ascon_provider.hpp: ascon_provider", "algorithm/detail/esch_provider.hpp: esch_functions, esch_provider", "algorithm/detail/sm3_provider.hpp: transform", "detail/absorb_data.hpp: absorb_bytes", "detail/functions.hpp: rotate_left, rotate_right, byteswap"]}
{"id": "C72", "title": "The text of clear, run by an interpreter, erases the arrays and strings of the object", "statement": "The function clear of the MD5, SHA-1, SHA-2, SHA-3, Whirlpool, Ascon, Esch, SM3, JH, Groestl, Kupyna, Streebog, ECHO, LSH, BLAKE, SHAKE, BLAKE2 and Skein providers, translated mechanically and run by the interpreter of C71 on an object whose arrays have the sizes of their declarations, is defined for all contents of the arrays and, in the last three, for all strings; afterwards every byte of every array that is a member of the object (chaining value, message buffer, tweak, salt, expanded message) is zero, the arrays have the types and lengths they had, the memory of the characters of the strings (keys, names, customizations) is zero and the strings are empty.", "quantifier": "for all contents of the arrays, strings and variables", "why_tests_cant": "A test reads the memory of one object after one history, if the compiler leaves it a way to do so; it does not find a byte that is left over only where the test data happened to be zero.", "anchors": ["algorithm/detail/*_provider.hpp: clear and the declarations of the arrays", "detail/functions.hpp:85-97 zero_memory"]}
