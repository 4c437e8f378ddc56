"""Writes MANIFEST.json from the list below."""
import json
P = 'Digestpp.Properties.'
C = {
 'C01': ('proved', ['absorb_split', 'xof_absorb_split'], 'All classes, any two partitions, any history before and after.'),
 'C02': ('proved', ['md5_conforms'], ''),
 'C03': ('proved', ['sha1_conforms'], ''),
 'C04': ('proved', ['sha256_conforms', 'sha224_conforms'], ''),
 'C05': ('proved', ['sha512_conforms', 'sha512_static_conforms', 'sha384_conforms'], ''),
 'C06': ('proved', ['sha3_conforms', 'sha3_static_conforms'], ''),
 'C07': ('proved', ['shake_conforms'], ''),
 'C08': ('partial', ['cshake_conforms_partial', 'cshake_conforms_full', 'cshake_not_conforms'], 'False when the encoded strings fill a block exactly; the exact behaviour is proved too.'),
 'C09': ('partial', ['kmac_conforms_partial', 'kmac_static_conforms_partial', 'kmac_xof_conforms_partial', 'kmac_conforms_full', 'kmac_xof_conforms_full', 'kmac_not_conforms'], 'Inherits the exception of C08; the exact behaviour is proved too.'),
 'C10': ('proved', ['k12_conforms', 'kt256_conforms', 'm14_conforms'], 'Messages below 2^64 bytes, customization below 2^61 bytes.'),
 'C11': ('proved', ['blake_conforms', 'blake_static_conforms'], ''),
 'C12': ('proved', ['blake2b_conforms', 'blake2b_conforms_full', 'blake2b_static_conforms', 'blake2s_conforms', 'blake2s_conforms_full', 'blake2s_static_conforms'], ''),
 'C13': ('proved', ['blake2xb_conforms', 'blake2xb_conforms_full', 'blake2xb_static_conforms', 'blake2xs_conforms', 'blake2xs_conforms_full', 'blake2xs_static_conforms', 'blake2xb_xof_conforms', 'blake2xb_xof_conforms_full', 'blake2xs_xof_conforms', 'blake2xs_xof_conforms_full'], 'Output positions up to 2^32 blocks.'),
 'C14': ('partial', ['blake2bp_conforms_partial', 'blake2bp_conforms_full_partial', 'blake2bp_static_conforms_partial', 'blake2sp_conforms_partial', 'blake2sp_conforms_full_partial', 'blake2sp_static_conforms_partial', 'blake2bp_conforms_clr', 'blake2sp_conforms_clr', 'blake2bp_static_conforms_clr', 'blake2sp_static_conforms_clr', 'blake2bp_reset_true_wrong', 'blake2sp_reset_true_wrong'], 'Proved for all histories without reset(true); after reset(true) the code loses the tree parameters and the property is false. The exact behaviour in all histories, with reset(true), is proved too (X_conforms_clr).'),
 'C15': ('proved', ['skein256_conforms', 'skein512_conforms', 'skein1024_conforms', 'skein256_static_conforms', 'skein512_static_conforms', 'skein1024_static_conforms', 'skein256_xof_conforms', 'skein512_xof_conforms', 'skein1024_xof_conforms'], 'Messages below 2^64 bytes, parameter strings below 2^63 bytes.'),
 'C16': ('proved', ['groestl_conforms', 'groestl_static_conforms'], 'Messages below 2^61-256 bytes.'),
 'C17': ('proved', ['jh_conforms', 'jh_static_conforms', 'jh_sqrt2'], 'JH-8n for n from 1 to 64, messages below 2^61 bytes; the bit-sliced rounds are proved equal to the rounds on 256 four-bit elements, the 168 words of constants to the constants generated from the square root of two.'),
 'C18': ('proved', ['whirlpool_conforms'], ''),
 'C19': ('proved', ['kupyna_conforms', 'kupyna_static_conforms'], ''),
 'C20': ('partial', ['streebog_conforms_partial', 'streebog_static_conforms_partial', 'streebog_conforms_full', 'streebog_static_conforms_full', 'streebog_short', 'streebog_add_wrong_iff', 'streebog_not_conforms'], 'False when a carry must pass through a 64-bit word of the checksum; the exact behaviour is proved too.'),
 'C22': ('partial', ['lsh256_conforms_masked_partial', 'lsh512_conforms_masked_partial', 'lsh256_static_conforms_masked_partial', 'lsh512_static_conforms_masked_partial', 'lsh256_undefined', 'lsh512_undefined', 'lsh256_conforms_rotating', 'lsh512_conforms_rotating', 'lsh256_conforms_zero'], 'The code shifts words by their full width; proved for machines that reduce shift counts. Under the language rules construction is undefined behaviour.'),
 'C23': ('proved', ['echo_conforms', 'echo_static_conforms'],
  'For every size N from 8 to 512 divisible by 8, every message of fewer than 2^61 - 20 bytes, every salt history.'),
 'C24': ('proved', ['esch256_conforms', 'esch384_conforms', 'esch256_static_conforms', 'esch384_static_conforms', 'esch256_xof_conforms', 'esch384_xof_conforms'],
  'Esch256, Esch384, XOEsch256, XOEsch384 of the Schwaemm and Esch specification; all messages, all output lengths, all histories.'),
 'C25': ('proved', ['ascon_hash_conforms', 'ascon_xof_conforms', 'ascon_cxof_conforms', 'ascon_cxof_conforms_clr'],
  'Ascon-Hash256, Ascon-XOF128, Ascon-CXOF128 of SP 800-232, with the S-box layer specified by the S-box table; the precomputed initial states are the permuted initial values. For ascon_cxof, ascon_cxof_conforms_clr has the histories with reset(true), in which the customization stays (see C28).'),
 'C26': ('proved', ['digest_pure', 'digest_pure_lib'], 'The first for any provider and any history.'),
 'C27': ('proved', ['reset_restarts', 'xof_reset_restarts'], ''),
 'C28': ('partial', ['reset_true_partial', 'xof_reset_true_partial', 'blake2bp_reset_true_wrong', 'blake2sp_reset_true_wrong', 'ascon_cxof_reset_true_wrong', 'blake2bp_conforms_clr', 'blake2sp_conforms_clr', 'ascon_cxof_conforms_clr'], 'False for blake2bp, blake2sp and ascon_cxof, whose exact behaviour in all histories is proved; proved as stated for all other classes.'),
 'C29': ('proved', ['set_restarts', 'set_order', 'set_overwrites', 'xof_set_restarts', 'xof_set_order', 'xof_set_overwrites'], ''),
 'C30': ('proved', ['set_rejected', 'xof_set_rejected'], ''),
 'C31': ('proved', ['squeeze_stream', 'squeeze_split', 'squeeze_forms_same'], ''),
 'C33': ('proved', ['hex_roundtrip', 'digest_exact', 'squeeze_forms'], ''),
 'C34': ('proved', ['digest_exact'], ''),
 'C35': ('partial', ['size_checked_partial', 'size_list_accepts_all', 'size_list_unchecked', 'size_list_undefined'],
  'False: the overload of validate_hash_size taking a list of sizes never throws, so sha3, blake, esch, kupyna and streebog accept every size. Proved for all other classes; for the list classes the consequence (undefined behaviour in digest) is proved.'),
 'C36': ('proved', ['absorb_stream', 'absorb_overloads', 'xof_absorb_overloads'], ''),
 'C37': ('proved', ['absorb_overloads', 'xof_absorb_overloads'], ''),
 'C38': ('proved', ['hash_no_ub', 'xof_no_ub', 'xof_squeeze_zero_ub'],
   'Every class, every initial memory, every valid call history: no buffer access outside its array, no division by zero, no empty vector access. The one exception, squeeze of zero bytes into an iterator, is proved to be undefined. Shifts are property C39.'),
 'C39': ('partial', ['sm3_undefined', 'lsh256_undefined', 'lsh512_undefined', 'hash_no_undefined_shift_partial', 'xof_no_undefined_shift', 'encode_shifts'],
  'False as stated: SM3 and LSH shift a 32- or 64-bit word by its width (rotate by 0 or by at least the width) for every message. Proved for all other classes and all histories; rotations by constants carry a proof of the range in the model, rotations by computed counts yield an error outcome that is proved never to occur.'),
 'C41': ('proved', ['left_encode_correct', 'right_encode_correct', 'length_encode_correct', 'left_encode_injective', 'right_encode_injective'], ''),
 'C42': ('proved', ['blake2p_schedule_independent', 'blake2bp_schedule_conforms_partial', 'blake2sp_schedule_conforms_partial', 'blake2bp_schedule_conforms_clr', 'blake2sp_schedule_conforms_clr'], 'Interleavings of the updates of single blocks; a leaf never touches the memory of another leaf.'),
 'C43': ('proved', ['static_eq_runtime'], ''),
 'C44': ('proved', ['interleave', 'interleave_defined', 'copies_independent', 'xof_copies_independent'], 'Objects are values; the headers hold no pointers and no mutable static data.'),
 'C45': ('partial', ['hash_clear_wipes', 'xof_clear_wipes_partial', 'asconCxof_clear_keeps', 'kmac_clear_key'],
   'True of every hash function and every XOF except ascon_cxof128, whose customization string survives clear() (proved). The KMAC key string becomes that of an unkeyed object. Not modelled: stack copies and buffers a std::string has given up.'),
 'C46': ('proved', ['sha1_all_lengths', 'sha224_all_lengths', 'sha256_all_lengths', 'sha512_all_lengths', 'sha512_static_all_lengths', 'sm3_all_lengths_masked', 'whirlpool_all_lengths', 'jh_all_lengths', 'jh_static_all_lengths', 'kupyna_all_lengths', 'kupyna_static_all_lengths', 'streebog_all_lengths', 'streebog_static_all_lengths', 'blake_all_lengths', 'blake_static_all_lengths', 'groestl_all_lengths', 'groestl_static_all_lengths', 'echo_all_lengths', 'echo_static_all_lengths'],
  'Exact behaviour for messages of every length: the standard with the length field reduced modulo 2^64 bits.'),
 'C47': ('proved', ['cshake_empty_is_shake'], ''),
 'C40': ('proved', ['md5_inputs', 'sha1_inputs', 'sha224_inputs', 'sha256_inputs', 'sha512_inputs', 'sha3_inputs', 'shake_inputs', 'sm3_inputs', 'whirlpool_inputs', 'kupyna_inputs', 'groestl_inputs', 'jh_inputs', 'echo_inputs', 'streebog_inputs', 'lsh256_inputs', 'lsh512_inputs', 'blake256_inputs', 'blake512_inputs', 'blake2_params_ok', 'blake2b_inputs', 'blake2s_inputs', 'blake2xb_inputs', 'blake2xs_inputs', 'blake2x_xof_inputs', 'blake2bp_inputs', 'blake2sp_inputs', 'skein_inputs', 'skein_xof_inputs', 'esch_inputs', 'esch_xof_inputs', 'ascon_inputs', 'ascon_cxof_inputs', 'k12_inputs', 'k12_inputs_injective', 'cshake_input', 'cshake_input_injective', 'kmac_input', 'kmac_xof_input', 'kmac_input_injective'],
  'The code computes the iteration, and the inputs of the compression function calls determine message and parameters; cSHAKE and KMAC under C48. BLAKE2 below 2^60 bytes, Skein, K12 below 2^64 bytes, all others any length.'),
 'C51': ('proved', ['md5_collision', 'sha1_collision', 'sm3_collision', 'sha2_collision', 'sha256_collision', 'sha512_collision', 'whirlpool_collision', 'kupyna_collision', 'groestl_collision', 'jh_collision', 'echo_collision', 'streebog_collision', 'streebog512_collision', 'blake_collision', 'blake2_collision', 'skein_collision', 'skein_collision_params', 'lsh_collision'],
  'Constructive: the collision is between calls made while hashing the two messages. That the objects compute these iterations is C40. For LSH and for Skein with different parameters there is a third case, a return to the initial value.'),
 'C32': ('partial', ['shake_gap', 'cshake_gap', 'kmac_xof_gap', 'k12_gap', 'kt256_gap', 'm14_gap', 'blake2xb_gap', 'blake2xs_gap', 'skein256_gap', 'skein512_gap', 'skein1024_gap', 'esch256_gap', 'esch384_gap', 'ascon_xof_gap', 'ascon_cxof_gap', 'gap_extends', 'empty_squeeze_partial', 'empty_squeeze_not_neutral', 'empty_squeeze_block_end'],
  'False in every XOF class (empty_squeeze_not_neutral). Proved: the exact effect of squeezes of length zero in every history of every XOF class (X_gap), and that they have no effect once squeezing has begun, in the sponges if not at the end of a block (empty_squeeze_partial).'),
 'C53': ('proved', ['hash_memory_irrelevant', 'xof_memory_irrelevant'],
  'Relational invariants between two objects (what is compared of a buffer is what was written since the restart), for all classes; for hash functions without limits, from conformance.'),
 'C55': ('proved', ['md5_extends', 'sha1_extends', 'sha256_extends', 'sha512_extends', 'sha512_static_extends', 'sm3_extends', 'whirlpool_extends', 'extends_collision'],
  'Extends: on observations of two objects. The functions that continue are in Spec/Extension.lean and see the digest and the length only.'),
 'C56': ('proved', ['keccak_permutes', 'ascon_permutes', 'sparkle_permutes', 'threefish_permutes', 'blake_permutes', 'groestl_permutes', 'kupyna_permutes', 'whirlpool_permutes', 'streebog_permutes', 'echo_permutes', 'jh_permutes', 'lsh_permutes'],
  'Stated of the model functions of the code, with the words of the arrays as arguments.'),
 'C57': ('proved', ['md5_feedForward', 'sha1_feedForward', 'sha256_feedForward', 'sha512_feedForward', 'sm3_feedForward', 'groestl_feedForward', 'kupyna_feedForward', 'whirlpool_feedForward', 'streebog_feedForward', 'skein_feedForward', 'feedForward_fixed_point'],
  'feedForward_fixed_point applies to each of the others.'),
 'C58': ('proved', ['md5_locals', 'sha1_locals', 'sha256_locals', 'sha512_locals', 'sha512t_locals', 'sm3_locals', 'sm3_locals_any', 'keccak_locals', 'keccak_permute_locals', 'blake_locals', 'blake2s_locals', 'blake2b_locals', 'blake2_key_locals', 'skein_locals', 'groestl_locals', 'groestl_output_locals', 'kupyna_locals', 'kupyna_output_locals', 'whirlpool_locals', 'streebog_locals', 'lsh_locals', 'lsh_buffer_locals', 'jh_locals', 'echo_locals', 'echo_buffer_locals', 'esch_locals', 'sparkle_locals', 'ascon_locals', 'encode_locals', 'cshake_locals', 'kmac_locals', 'k12_locals'],
  'Checked transcriptions in Model/Locals, proved equal to the model for all initial contents of the arrays.'),
 'C59': ('partial', ['md5_pointers_partial', 'null_pointer', 'aligned_fault', 'aligned_faults', 'buffers_aligned', 'sha1_pointers_partial', 'sm3_pointers_partial', 'sha2_pointers_partial', 'sha3_pointers_partial', 'shake_pointers_partial', 'blake_pointers_partial', 'blake_salt_pointer_partial', 'blake2_pointers_partial', 'skein_pointers_partial', 'groestl_pointers_partial', 'kupyna_pointers_partial', 'whirlpool_pointers_partial', 'streebog_pointers_partial', 'jh_pointers_partial', 'esch_pointers_partial', 'ascon_pointers_partial', 'copying_pointers_partial', 'bytes_faults'],
  'False as stated: misaligned word reads and memcpy from a null pointer. The theorems give exactly the sequences of calls with these faults (PointersDecide), and what is in order. BLAKE2p and the k12 family feed inner objects with derived pointers and are not covered.'),
 'C60': ('proved', ['sha3_inner', 'shake_inner', 'sponge_results', 'cshake_inner', 'kmac_inner', 'kmac_xof_inner', 'ascon_inner', 'esch_inner', 'sha3_extends', 'shake_extends', 'ascon_extends', 'esch_extends', 'keccak_next_block'],
  'Uses that the permutations are injective (C56) and that the inputs determine parameters and message (C40, C48). The k12 family (tree hashing) is not covered.'),
 'C61': ('proved', ['sha224_sha256_differ', 'sha512_differ', 'groestl_differ', 'echo_differ', 'streebog_differ', 'blake_differ', 'jh_differ', 'lsh_differ', 'blake2b_differ', 'blake2s_differ', 'ascon_differ', 'keccak_suffixes', 'k12_suffixes', 'kmac_separate', 'kmac_sizes', 'kupyna_truncates'],
  'chaining values of constructed objects, for every pair of different accepted sizes or kinds; for JH, LSH and Ascon after any common message; kupyna_truncates is the exception; LSH on machines that reduce shift counts, as for C22; Streebog and BLAKE also accept other sizes (C35), which are not covered except for Streebog against 512 bits'),
 'C62': ('proved', ['md5_narrow', 'sha1_narrow', 'sha224_narrow', 'sha256_narrow', 'sha512_narrow', 'sha512_init_narrow', 'sm3_narrow', 'whirlpool_narrow', 'groestl_narrow', 'jh_narrow', 'kupyna_narrow', 'echo_narrow', 'streebog_narrow', 'blake_narrow', 'blake2b_narrow', 'blake2s_narrow', 'md5_wraps'],
  'Model/Width writes update and the block loops again with every size_t product modulo 2^z. init, final and clear are not written again: their size_t values are below 2048 and a difference that wrapped would be out of bounds in the model. md5_wraps shows that the limit on the length of one call is needed.'),
 'C63': ('proved', ['threads_alone', 'threads_prefix', 'threads_finish', 'threads_no_race', 'threads_const_keep', 'threads_digest', 'threads_lost', 'someCalls_disciplined'],
  'Calls are divided into accesses to parts of the object in any way (Impl); simplification: within one call the reads come before the writes. threads_lost is the third point of the README section.'),
 'C64': ('proved', ['k12_tree_collision', 'k12_leaf_collision', 'blake2p_tree_collision', 'blake2p_full_collision', 'blake2x_tree_collision', 'blake2xof_tree_collision', 'hash_same_digest', 'xof_same_output', 'md5_objects_collide', 'k12_objects_collide'],
  'The functions are those of C10, C13, C14, which the objects compute; hash_same_digest and xof_same_output carry C51, C60 and C64 over to objects.'),
 'C65': ('proved', ['absorb_stream_any_state', 'good_stream_absorbed', 'stream_exceptions_lose_tail', 'stream_exceptions_lose_all', 'hash_calls', 'hash_calls_tree', 'xof_calls', 'hexdigest_truncated', 'kmac_failed_reset', 'kmac_destructor_needs_memory', 'blake2bp_torn_key', 'blake2sp_torn_key', 'mixed_same'],
  'hash_calls, hash_calls_tree and xof_calls take any conformance theorem of the class (C03 to C27) as hypothesis. The exceptions named in the statement have their exact behaviour proved; see findings 17 to 20.'),
 'C66': ('proved', ['md5_trace', 'sha1_trace', 'sha256_trace', 'sha512_trace', 'sm3_trace', 'keccak_permute_trace', 'keccak_trace', 'blake_trace', 'blake2s_trace', 'blake2b_trace', 'skein_trace', 'lsh256_trace', 'lsh512_trace', 'esch_trace', 'ascon_trace', 'jh_trace', 'groestl_tells', 'kupyna_tells', 'whirlpool_tells', 'streebog_tells', 'echo_tells'],
  'The trace is that of the transformation functions; buffering, padding and output are not traced. Tells: there is a function from traces to (chaining value, data) that is right for every call.'),
 'C69': ('proved', ['groestl_wide_trail_p', 'groestl_wide_trail_q', 'kupyna_wide_trail_p', 'whirlpool_wide_trail', 'whirlpool_wide_trail_key', 'streebog_wide_trail', 'streebog_wide_trail_key', 'echo_wide_trail',
   'echo_four_rounds', 'groestl_active', 'whirlpool_active', 'streebog_active'],
  'For the round functions of the model, any keys and constants. The second permutation of Kupyna adds constants modulo 2^64, which does not keep patterns of bytes; it is not part of the claim.'),
 'C71': ('proved', ['md5_source', 'sha1_source', 'sha224_source', 'sha256_source', 'sha512_source', 'sha512_absorb_source', 'whirlpool_source', 'sha3_source', 'shake_source', 'cshake_source', 'cshake_source_regular', 'kmac_source', 'kmac_xof_source', 'kmac_source_regular', 'kmac_xof_source_regular', 'ascon_hash_source', 'ascon_xof_source', 'ascon_cxof_source', 'esch256_source', 'esch384_source', 'esch256_xof_source', 'esch384_xof_source', 'sm3_source_undefined',
  'load_inside', 'element_inside', 'copy_inside', 'shift_meaning', 'int_meaning', 'word_meaning', 'read_meaning', 'memcpy_meaning'],
  'About the translated text (Cpp/Src, by tools/cpp2lean.py) and not about the model. The second line is about the interpreter.'),
 'C72': ('proved', ['md5_clear_source', 'sha1_clear_source', 'sha256_clear_source', 'sha512_clear_source', 'sha3_clear_source', 'whirlpool_clear_source', 'ascon_clear_source', 'esch256_clear_source', 'esch384_clear_source', 'sm3_clear_source', 'jh_clear_source', 'groestl_clear_source', 'kupyna_clear_source', 'streebog_clear_source', 'echo_clear_source', 'lsh256_clear_source', 'lsh512_clear_source', 'blake_clear_source', 'shake_clear_source', 'blake2b_clear_source', 'blake2s_clear_source', 'skein256_clear_source', 'skein512_clear_source', 'skein1024_clear_source'], 'not translated: KMAC, K12, BLAKE2 parallel, whose clear calls that of members; the string of Ascon-CXOF is not erased, see C45'),
 'C70': ('proved', ['streebog_tklog', 'streebog_tklog_total', 'streebog_linear', 'streebog_tables', 'groestl_uniformity', 'echo_uniformity', 'kupyna_uniformity', 'whirlpool_uniformity', 'streebog_uniformity'],
  'For the tables of the model, which are those of the code.'),
 'C68': ('partial', ['absorb_selects', 'absorb_outcomes', 'absorb_unique', 'squeeze_selects', 'squeeze_outcomes', 'digest_outcomes', 'digest_char_buffer', 'digest_selects_partial', 'setter_selects',
   'default_constructor_partial', 'jh_default_constructor', 'size_constructor_partial', 'static_skein_ignores_size', 'static_zero', 'xof_constructors', 'digest_or_squeeze', 'literal_absorbed', 'char_array_overrun',
   'other_arrays_rejected', 'integers_truncated', 'digest_array_unchecked'],
  'False as stated in three places, each with a witness: digest into buffers of char, the default constructor of JH, the size argument of static Skein. All other cases are proved, and the exact outcome in these.'),
 'C67': ('proved', ['md5_hash_trace', 'sha1_hash_trace', 'sha256_hash_trace', 'sha512_hash_trace', 'sm3_hash_trace', 'jh_hash_trace', 'lsh256_hash_trace', 'lsh512_hash_trace', 'sha3_hash_trace', 'blake_hash_trace',
   'blake2s_run_trace', 'blake2b_run_trace', 'blake2xs_xof_run_trace', 'blake2xb_xof_run_trace', 'skein_run_trace', 'skein_xof_run_trace', 'cshake_run_trace', 'kmac_run_trace', 'kmac_xof_run_trace',
   'kmac_key_length', 'esch_run_trace', 'esch_xof_run_trace', 'ascon_run_trace', 'ascon_xof_run_trace', 'ascon_cxof_run_trace',
   'blake2sp_run_trace', 'blake2bp_run_trace', 'k12_run_trace'],
  'init (where it absorbs strings), update, absorb_bytes, squeeze and final traced. Table-based algorithms are not included, as C66 is false of them.'),
 'C54': ('proved', ['hash_reset_forgets', 'xof_reset_forgets', 'hash_reset_like_new', 'xof_reset_like_new'],
  'The relation of C53: absorbing, squeezing and init keep the members that init reads.'),
 'C52': ('proved', ['shake_late', 'cshake_late', 'kmac_xof_late', 'k12_late', 'kt256_late', 'm14_late', 'esch256_late', 'esch384_late', 'late_lost', 'shake_late_lost', 'late_matters'],
  'X_late: every history with absorbs after squeezes that stay within the buffered block; late_lost: other bytes of the same number give the same observations. In Ascon, BLAKE2X and Skein late bytes do change the output (late_matters); their effect there is not described.'),
 'C48': ('proved', ['cshake_input', 'cshake_input_injective', 'kmac_input', 'kmac_xof_input', 'kmac_input_injective'],
  'Strings shorter than 2^61 bytes. The blocks given to the permutation determine the tuple, for KMAC also the output length.'),
 'C50': ('partial', ['set_empty_removes_partial', 'xof_set_empty_removes_partial', 'empty_salt_kept', 'xof_empty_salt_kept', 'blake2_salt_stays'],
  'False for salt and personalization of the BLAKE2 classes, where the exact behaviour is proved; proved for all other parameters of all classes.'),
 'C49': ('partial', ['blake2x_size_limit', 'blake2x_size_rejected'],
  'False at the upper end: the largest size in bits accepted by the code is stated exactly.'),
 'C21': ('partial', ['sm3_conforms_masked_partial', 'sm3_undefined', 'sm3_conforms_rotating', 'sm3_not_conforms_zero'], 'The code shifts 32-bit words by 32 and more; proved for machines that reduce shift counts.'),
}
claims = [{'property': k, 'status': s, 'theorems': [P + t for t in ts], 'note': n} for k, (s, ts, n) in sorted(C.items())]
json.dump({'claims': claims}, open('/verif/MANIFEST.json', 'w'), indent=1)
