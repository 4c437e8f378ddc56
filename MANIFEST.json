{
 "claims": [
  {
   "property": "C01",
   "status": "proved",
   "theorems": [
    "Digestpp.Properties.absorb_split",
    "Digestpp.Properties.xof_absorb_split"
   ],
   "note": "All classes, any two partitions, any history before and after."
  },
  {
   "property": "C02",
   "status": "proved",
   "theorems": [
    "Digestpp.Properties.md5_conforms"
   ],
   "note": ""
  },
  {
   "property": "C03",
   "status": "proved",
   "theorems": [
    "Digestpp.Properties.sha1_conforms"
   ],
   "note": ""
  },
  {
   "property": "C04",
   "status": "proved",
   "theorems": [
    "Digestpp.Properties.sha256_conforms",
    "Digestpp.Properties.sha224_conforms"
   ],
   "note": ""
  },
  {
   "property": "C05",
   "status": "proved",
   "theorems": [
    "Digestpp.Properties.sha512_conforms",
    "Digestpp.Properties.sha512_static_conforms",
    "Digestpp.Properties.sha384_conforms"
   ],
   "note": ""
  },
  {
   "property": "C06",
   "status": "proved",
   "theorems": [
    "Digestpp.Properties.sha3_conforms",
    "Digestpp.Properties.sha3_static_conforms"
   ],
   "note": ""
  },
  {
   "property": "C07",
   "status": "proved",
   "theorems": [
    "Digestpp.Properties.shake_conforms"
   ],
   "note": ""
  },
  {
   "property": "C08",
   "status": "partial",
   "theorems": [
    "Digestpp.Properties.cshake_conforms_partial",
    "Digestpp.Properties.cshake_conforms_full",
    "Digestpp.Properties.cshake_not_conforms"
   ],
   "note": "False when the encoded strings fill a block exactly; the exact behaviour is proved too."
  },
  {
   "property": "C09",
   "status": "partial",
   "theorems": [
    "Digestpp.Properties.kmac_conforms_partial",
    "Digestpp.Properties.kmac_static_conforms_partial",
    "Digestpp.Properties.kmac_xof_conforms_partial",
    "Digestpp.Properties.kmac_conforms_full",
    "Digestpp.Properties.kmac_xof_conforms_full",
    "Digestpp.Properties.kmac_not_conforms"
   ],
   "note": "Inherits the exception of C08; the exact behaviour is proved too."
  },
  {
   "property": "C10",
   "status": "proved",
   "theorems": [
    "Digestpp.Properties.k12_conforms",
    "Digestpp.Properties.kt256_conforms",
    "Digestpp.Properties.m14_conforms"
   ],
   "note": "Messages below 2^64 bytes, customization below 2^61 bytes."
  },
  {
   "property": "C11",
   "status": "proved",
   "theorems": [
    "Digestpp.Properties.blake_conforms",
    "Digestpp.Properties.blake_static_conforms"
   ],
   "note": ""
  },
  {
   "property": "C12",
   "status": "proved",
   "theorems": [
    "Digestpp.Properties.blake2b_conforms",
    "Digestpp.Properties.blake2b_conforms_full",
    "Digestpp.Properties.blake2b_static_conforms",
    "Digestpp.Properties.blake2s_conforms",
    "Digestpp.Properties.blake2s_conforms_full",
    "Digestpp.Properties.blake2s_static_conforms"
   ],
   "note": ""
  },
  {
   "property": "C13",
   "status": "proved",
   "theorems": [
    "Digestpp.Properties.blake2xb_conforms",
    "Digestpp.Properties.blake2xb_conforms_full",
    "Digestpp.Properties.blake2xb_static_conforms",
    "Digestpp.Properties.blake2xs_conforms",
    "Digestpp.Properties.blake2xs_conforms_full",
    "Digestpp.Properties.blake2xs_static_conforms",
    "Digestpp.Properties.blake2xb_xof_conforms",
    "Digestpp.Properties.blake2xb_xof_conforms_full",
    "Digestpp.Properties.blake2xs_xof_conforms",
    "Digestpp.Properties.blake2xs_xof_conforms_full"
   ],
   "note": "Output positions up to 2^32 blocks."
  },
  {
   "property": "C14",
   "status": "partial",
   "theorems": [
    "Digestpp.Properties.blake2bp_conforms_partial",
    "Digestpp.Properties.blake2bp_conforms_full_partial",
    "Digestpp.Properties.blake2bp_static_conforms_partial",
    "Digestpp.Properties.blake2sp_conforms_partial",
    "Digestpp.Properties.blake2sp_conforms_full_partial",
    "Digestpp.Properties.blake2sp_static_conforms_partial",
    "Digestpp.Properties.blake2bp_conforms_clr",
    "Digestpp.Properties.blake2sp_conforms_clr",
    "Digestpp.Properties.blake2bp_static_conforms_clr",
    "Digestpp.Properties.blake2sp_static_conforms_clr",
    "Digestpp.Properties.blake2bp_reset_true_wrong",
    "Digestpp.Properties.blake2sp_reset_true_wrong"
   ],
   "note": "Proved for all histories without reset(true); after reset(true) the code loses the tree parameters and the property is false. The exact behaviour in all histories, with reset(true), is proved too (X_conforms_clr)."
  },
  {
   "property": "C15",
   "status": "proved",
   "theorems": [
    "Digestpp.Properties.skein256_conforms",
    "Digestpp.Properties.skein512_conforms",
    "Digestpp.Properties.skein1024_conforms",
    "Digestpp.Properties.skein256_static_conforms",
    "Digestpp.Properties.skein512_static_conforms",
    "Digestpp.Properties.skein1024_static_conforms",
    "Digestpp.Properties.skein256_xof_conforms",
    "Digestpp.Properties.skein512_xof_conforms",
    "Digestpp.Properties.skein1024_xof_conforms"
   ],
   "note": "Messages below 2^64 bytes, parameter strings below 2^63 bytes."
  },
  {
   "property": "C16",
   "status": "proved",
   "theorems": [
    "Digestpp.Properties.groestl_conforms",
    "Digestpp.Properties.groestl_static_conforms"
   ],
   "note": "Messages below 2^61-256 bytes."
  },
  {
   "property": "C17",
   "status": "proved",
   "theorems": [
    "Digestpp.Properties.jh_conforms",
    "Digestpp.Properties.jh_static_conforms",
    "Digestpp.Properties.jh_sqrt2"
   ],
   "note": "JH-8n for n from 1 to 64, messages below 2^61 bytes; the bit-sliced rounds are proved equal to the rounds on 256 four-bit elements, the 168 words of constants to the constants generated from the square root of two."
  },
  {
   "property": "C18",
   "status": "proved",
   "theorems": [
    "Digestpp.Properties.whirlpool_conforms"
   ],
   "note": ""
  },
  {
   "property": "C19",
   "status": "proved",
   "theorems": [
    "Digestpp.Properties.kupyna_conforms",
    "Digestpp.Properties.kupyna_static_conforms"
   ],
   "note": ""
  },
  {
   "property": "C20",
   "status": "partial",
   "theorems": [
    "Digestpp.Properties.streebog_conforms_partial",
    "Digestpp.Properties.streebog_static_conforms_partial",
    "Digestpp.Properties.streebog_conforms_full",
    "Digestpp.Properties.streebog_static_conforms_full",
    "Digestpp.Properties.streebog_short",
    "Digestpp.Properties.streebog_add_wrong_iff",
    "Digestpp.Properties.streebog_not_conforms"
   ],
   "note": "False when a carry must pass through a 64-bit word of the checksum; the exact behaviour is proved too."
  },
  {
   "property": "C21",
   "status": "partial",
   "theorems": [
    "Digestpp.Properties.sm3_conforms_masked_partial",
    "Digestpp.Properties.sm3_undefined",
    "Digestpp.Properties.sm3_conforms_rotating",
    "Digestpp.Properties.sm3_not_conforms_zero"
   ],
   "note": "The code shifts 32-bit words by 32 and more; proved for machines that reduce shift counts."
  },
  {
   "property": "C22",
   "status": "partial",
   "theorems": [
    "Digestpp.Properties.lsh256_conforms_masked_partial",
    "Digestpp.Properties.lsh512_conforms_masked_partial",
    "Digestpp.Properties.lsh256_static_conforms_masked_partial",
    "Digestpp.Properties.lsh512_static_conforms_masked_partial",
    "Digestpp.Properties.lsh256_undefined",
    "Digestpp.Properties.lsh512_undefined",
    "Digestpp.Properties.lsh256_conforms_rotating",
    "Digestpp.Properties.lsh512_conforms_rotating",
    "Digestpp.Properties.lsh256_conforms_zero"
   ],
   "note": "The code shifts words by their full width; proved for machines that reduce shift counts. Under the language rules construction is undefined behaviour."
  },
  {
   "property": "C23",
   "status": "proved",
   "theorems": [
    "Digestpp.Properties.echo_conforms",
    "Digestpp.Properties.echo_static_conforms"
   ],
   "note": "For every size N from 8 to 512 divisible by 8, every message of fewer than 2^61 - 20 bytes, every salt history."
  },
  {
   "property": "C24",
   "status": "proved",
   "theorems": [
    "Digestpp.Properties.esch256_conforms",
    "Digestpp.Properties.esch384_conforms",
    "Digestpp.Properties.esch256_static_conforms",
    "Digestpp.Properties.esch384_static_conforms",
    "Digestpp.Properties.esch256_xof_conforms",
    "Digestpp.Properties.esch384_xof_conforms"
   ],
   "note": "Esch256, Esch384, XOEsch256, XOEsch384 of the Schwaemm and Esch specification; all messages, all output lengths, all histories."
  },
  {
   "property": "C25",
   "status": "proved",
   "theorems": [
    "Digestpp.Properties.ascon_hash_conforms",
    "Digestpp.Properties.ascon_xof_conforms",
    "Digestpp.Properties.ascon_cxof_conforms",
    "Digestpp.Properties.ascon_cxof_conforms_clr"
   ],
   "note": "Ascon-Hash256, Ascon-XOF128, Ascon-CXOF128 of SP 800-232, with the S-box layer specified by the S-box table; the precomputed initial states are the permuted initial values. For ascon_cxof, ascon_cxof_conforms_clr has the histories with reset(true), in which the customization stays (see C28)."
  },
  {
   "property": "C26",
   "status": "proved",
   "theorems": [
    "Digestpp.Properties.digest_pure",
    "Digestpp.Properties.digest_pure_lib"
   ],
   "note": "The first for any provider and any history."
  },
  {
   "property": "C27",
   "status": "proved",
   "theorems": [
    "Digestpp.Properties.reset_restarts",
    "Digestpp.Properties.xof_reset_restarts"
   ],
   "note": ""
  },
  {
   "property": "C28",
   "status": "partial",
   "theorems": [
    "Digestpp.Properties.reset_true_partial",
    "Digestpp.Properties.xof_reset_true_partial",
    "Digestpp.Properties.blake2bp_reset_true_wrong",
    "Digestpp.Properties.blake2sp_reset_true_wrong",
    "Digestpp.Properties.ascon_cxof_reset_true_wrong",
    "Digestpp.Properties.blake2bp_conforms_clr",
    "Digestpp.Properties.blake2sp_conforms_clr",
    "Digestpp.Properties.ascon_cxof_conforms_clr"
   ],
   "note": "False for blake2bp, blake2sp and ascon_cxof, whose exact behaviour in all histories is proved; proved as stated for all other classes."
  },
  {
   "property": "C29",
   "status": "proved",
   "theorems": [
    "Digestpp.Properties.set_restarts",
    "Digestpp.Properties.set_order",
    "Digestpp.Properties.set_overwrites",
    "Digestpp.Properties.xof_set_restarts",
    "Digestpp.Properties.xof_set_order",
    "Digestpp.Properties.xof_set_overwrites"
   ],
   "note": ""
  },
  {
   "property": "C30",
   "status": "proved",
   "theorems": [
    "Digestpp.Properties.set_rejected",
    "Digestpp.Properties.xof_set_rejected"
   ],
   "note": ""
  },
  {
   "property": "C31",
   "status": "proved",
   "theorems": [
    "Digestpp.Properties.squeeze_stream",
    "Digestpp.Properties.squeeze_split",
    "Digestpp.Properties.squeeze_forms_same"
   ],
   "note": ""
  },
  {
   "property": "C32",
   "status": "partial",
   "theorems": [
    "Digestpp.Properties.shake_gap",
    "Digestpp.Properties.cshake_gap",
    "Digestpp.Properties.kmac_xof_gap",
    "Digestpp.Properties.k12_gap",
    "Digestpp.Properties.kt256_gap",
    "Digestpp.Properties.m14_gap",
    "Digestpp.Properties.blake2xb_gap",
    "Digestpp.Properties.blake2xs_gap",
    "Digestpp.Properties.skein256_gap",
    "Digestpp.Properties.skein512_gap",
    "Digestpp.Properties.skein1024_gap",
    "Digestpp.Properties.esch256_gap",
    "Digestpp.Properties.esch384_gap",
    "Digestpp.Properties.ascon_xof_gap",
    "Digestpp.Properties.ascon_cxof_gap",
    "Digestpp.Properties.gap_extends",
    "Digestpp.Properties.empty_squeeze_partial",
    "Digestpp.Properties.empty_squeeze_not_neutral",
    "Digestpp.Properties.empty_squeeze_block_end"
   ],
   "note": "False in every XOF class (empty_squeeze_not_neutral). Proved: the exact effect of squeezes of length zero in every history of every XOF class (X_gap), and that they have no effect once squeezing has begun, in the sponges if not at the end of a block (empty_squeeze_partial)."
  },
  {
   "property": "C33",
   "status": "proved",
   "theorems": [
    "Digestpp.Properties.hex_roundtrip",
    "Digestpp.Properties.digest_exact",
    "Digestpp.Properties.squeeze_forms"
   ],
   "note": ""
  },
  {
   "property": "C34",
   "status": "proved",
   "theorems": [
    "Digestpp.Properties.digest_exact"
   ],
   "note": ""
  },
  {
   "property": "C35",
   "status": "partial",
   "theorems": [
    "Digestpp.Properties.size_checked_partial",
    "Digestpp.Properties.size_list_accepts_all",
    "Digestpp.Properties.size_list_unchecked",
    "Digestpp.Properties.size_list_undefined"
   ],
   "note": "False: the overload of validate_hash_size taking a list of sizes never throws, so sha3, blake, esch, kupyna and streebog accept every size. Proved for all other classes; for the list classes the consequence (undefined behaviour in digest) is proved."
  },
  {
   "property": "C36",
   "status": "proved",
   "theorems": [
    "Digestpp.Properties.absorb_stream",
    "Digestpp.Properties.absorb_overloads",
    "Digestpp.Properties.xof_absorb_overloads"
   ],
   "note": ""
  },
  {
   "property": "C37",
   "status": "proved",
   "theorems": [
    "Digestpp.Properties.absorb_overloads",
    "Digestpp.Properties.xof_absorb_overloads"
   ],
   "note": ""
  },
  {
   "property": "C38",
   "status": "proved",
   "theorems": [
    "Digestpp.Properties.hash_no_ub",
    "Digestpp.Properties.xof_no_ub",
    "Digestpp.Properties.xof_squeeze_zero_ub"
   ],
   "note": "Every class, every initial memory, every valid call history: no buffer access outside its array, no division by zero, no empty vector access. The one exception, squeeze of zero bytes into an iterator, is proved to be undefined. Shifts are property C39."
  },
  {
   "property": "C39",
   "status": "partial",
   "theorems": [
    "Digestpp.Properties.sm3_undefined",
    "Digestpp.Properties.lsh256_undefined",
    "Digestpp.Properties.lsh512_undefined",
    "Digestpp.Properties.hash_no_undefined_shift_partial",
    "Digestpp.Properties.xof_no_undefined_shift",
    "Digestpp.Properties.encode_shifts"
   ],
   "note": "False as stated: SM3 and LSH shift a 32- or 64-bit word by its width (rotate by 0 or by at least the width) for every message. Proved for all other classes and all histories; rotations by constants carry a proof of the range in the model, rotations by computed counts yield an error outcome that is proved never to occur."
  },
  {
   "property": "C40",
   "status": "proved",
   "theorems": [
    "Digestpp.Properties.md5_inputs",
    "Digestpp.Properties.sha1_inputs",
    "Digestpp.Properties.sha224_inputs",
    "Digestpp.Properties.sha256_inputs",
    "Digestpp.Properties.sha512_inputs",
    "Digestpp.Properties.sha3_inputs",
    "Digestpp.Properties.shake_inputs",
    "Digestpp.Properties.sm3_inputs",
    "Digestpp.Properties.whirlpool_inputs",
    "Digestpp.Properties.kupyna_inputs",
    "Digestpp.Properties.groestl_inputs",
    "Digestpp.Properties.jh_inputs",
    "Digestpp.Properties.echo_inputs",
    "Digestpp.Properties.streebog_inputs",
    "Digestpp.Properties.lsh256_inputs",
    "Digestpp.Properties.lsh512_inputs",
    "Digestpp.Properties.blake256_inputs",
    "Digestpp.Properties.blake512_inputs",
    "Digestpp.Properties.blake2_params_ok",
    "Digestpp.Properties.blake2b_inputs",
    "Digestpp.Properties.blake2s_inputs",
    "Digestpp.Properties.blake2xb_inputs",
    "Digestpp.Properties.blake2xs_inputs",
    "Digestpp.Properties.blake2x_xof_inputs",
    "Digestpp.Properties.blake2bp_inputs",
    "Digestpp.Properties.blake2sp_inputs",
    "Digestpp.Properties.skein_inputs",
    "Digestpp.Properties.skein_xof_inputs",
    "Digestpp.Properties.esch_inputs",
    "Digestpp.Properties.esch_xof_inputs",
    "Digestpp.Properties.ascon_inputs",
    "Digestpp.Properties.ascon_cxof_inputs",
    "Digestpp.Properties.k12_inputs",
    "Digestpp.Properties.k12_inputs_injective",
    "Digestpp.Properties.cshake_input",
    "Digestpp.Properties.cshake_input_injective",
    "Digestpp.Properties.kmac_input",
    "Digestpp.Properties.kmac_xof_input",
    "Digestpp.Properties.kmac_input_injective"
   ],
   "note": "The code computes the iteration, and the inputs of the compression function calls determine message and parameters; cSHAKE and KMAC under C48. BLAKE2 below 2^60 bytes, Skein, K12 below 2^64 bytes, all others any length."
  },
  {
   "property": "C41",
   "status": "proved",
   "theorems": [
    "Digestpp.Properties.left_encode_correct",
    "Digestpp.Properties.right_encode_correct",
    "Digestpp.Properties.length_encode_correct",
    "Digestpp.Properties.left_encode_injective",
    "Digestpp.Properties.right_encode_injective"
   ],
   "note": ""
  },
  {
   "property": "C42",
   "status": "proved",
   "theorems": [
    "Digestpp.Properties.blake2p_schedule_independent",
    "Digestpp.Properties.blake2bp_schedule_conforms_partial",
    "Digestpp.Properties.blake2sp_schedule_conforms_partial",
    "Digestpp.Properties.blake2bp_schedule_conforms_clr",
    "Digestpp.Properties.blake2sp_schedule_conforms_clr"
   ],
   "note": "Interleavings of the updates of single blocks; a leaf never touches the memory of another leaf."
  },
  {
   "property": "C43",
   "status": "proved",
   "theorems": [
    "Digestpp.Properties.static_eq_runtime"
   ],
   "note": ""
  },
  {
   "property": "C44",
   "status": "proved",
   "theorems": [
    "Digestpp.Properties.interleave",
    "Digestpp.Properties.interleave_defined",
    "Digestpp.Properties.copies_independent",
    "Digestpp.Properties.xof_copies_independent"
   ],
   "note": "Objects are values; the headers hold no pointers and no mutable static data."
  },
  {
   "property": "C45",
   "status": "partial",
   "theorems": [
    "Digestpp.Properties.hash_clear_wipes",
    "Digestpp.Properties.xof_clear_wipes_partial",
    "Digestpp.Properties.asconCxof_clear_keeps",
    "Digestpp.Properties.kmac_clear_key"
   ],
   "note": "True of every hash function and every XOF except ascon_cxof128, whose customization string survives clear() (proved). The KMAC key string becomes that of an unkeyed object. Not modelled: stack copies and buffers a std::string has given up."
  },
  {
   "property": "C46",
   "status": "proved",
   "theorems": [
    "Digestpp.Properties.sha1_all_lengths",
    "Digestpp.Properties.sha224_all_lengths",
    "Digestpp.Properties.sha256_all_lengths",
    "Digestpp.Properties.sha512_all_lengths",
    "Digestpp.Properties.sha512_static_all_lengths",
    "Digestpp.Properties.sm3_all_lengths_masked",
    "Digestpp.Properties.whirlpool_all_lengths",
    "Digestpp.Properties.jh_all_lengths",
    "Digestpp.Properties.jh_static_all_lengths",
    "Digestpp.Properties.kupyna_all_lengths",
    "Digestpp.Properties.kupyna_static_all_lengths",
    "Digestpp.Properties.streebog_all_lengths",
    "Digestpp.Properties.streebog_static_all_lengths",
    "Digestpp.Properties.blake_all_lengths",
    "Digestpp.Properties.blake_static_all_lengths",
    "Digestpp.Properties.groestl_all_lengths",
    "Digestpp.Properties.groestl_static_all_lengths",
    "Digestpp.Properties.echo_all_lengths",
    "Digestpp.Properties.echo_static_all_lengths"
   ],
   "note": "Exact behaviour for messages of every length: the standard with the length field reduced modulo 2^64 bits."
  },
  {
   "property": "C47",
   "status": "proved",
   "theorems": [
    "Digestpp.Properties.cshake_empty_is_shake"
   ],
   "note": ""
  },
  {
   "property": "C48",
   "status": "proved",
   "theorems": [
    "Digestpp.Properties.cshake_input",
    "Digestpp.Properties.cshake_input_injective",
    "Digestpp.Properties.kmac_input",
    "Digestpp.Properties.kmac_xof_input",
    "Digestpp.Properties.kmac_input_injective"
   ],
   "note": "Strings shorter than 2^61 bytes. The blocks given to the permutation determine the tuple, for KMAC also the output length."
  },
  {
   "property": "C49",
   "status": "partial",
   "theorems": [
    "Digestpp.Properties.blake2x_size_limit",
    "Digestpp.Properties.blake2x_size_rejected"
   ],
   "note": "False at the upper end: the largest size in bits accepted by the code is stated exactly."
  },
  {
   "property": "C50",
   "status": "partial",
   "theorems": [
    "Digestpp.Properties.set_empty_removes_partial",
    "Digestpp.Properties.xof_set_empty_removes_partial",
    "Digestpp.Properties.empty_salt_kept",
    "Digestpp.Properties.xof_empty_salt_kept",
    "Digestpp.Properties.blake2_salt_stays"
   ],
   "note": "False for salt and personalization of the BLAKE2 classes, where the exact behaviour is proved; proved for all other parameters of all classes."
  },
  {
   "property": "C51",
   "status": "proved",
   "theorems": [
    "Digestpp.Properties.md5_collision",
    "Digestpp.Properties.sha1_collision",
    "Digestpp.Properties.sm3_collision",
    "Digestpp.Properties.sha2_collision",
    "Digestpp.Properties.sha256_collision",
    "Digestpp.Properties.sha512_collision",
    "Digestpp.Properties.whirlpool_collision",
    "Digestpp.Properties.kupyna_collision",
    "Digestpp.Properties.groestl_collision",
    "Digestpp.Properties.jh_collision",
    "Digestpp.Properties.echo_collision",
    "Digestpp.Properties.streebog_collision",
    "Digestpp.Properties.streebog512_collision",
    "Digestpp.Properties.blake_collision",
    "Digestpp.Properties.blake2_collision",
    "Digestpp.Properties.skein_collision",
    "Digestpp.Properties.skein_collision_params",
    "Digestpp.Properties.lsh_collision"
   ],
   "note": "Constructive: the collision is between calls made while hashing the two messages. That the objects compute these iterations is C40. For LSH and for Skein with different parameters there is a third case, a return to the initial value."
  },
  {
   "property": "C52",
   "status": "proved",
   "theorems": [
    "Digestpp.Properties.shake_late",
    "Digestpp.Properties.cshake_late",
    "Digestpp.Properties.kmac_xof_late",
    "Digestpp.Properties.k12_late",
    "Digestpp.Properties.kt256_late",
    "Digestpp.Properties.m14_late",
    "Digestpp.Properties.esch256_late",
    "Digestpp.Properties.esch384_late",
    "Digestpp.Properties.late_lost",
    "Digestpp.Properties.shake_late_lost",
    "Digestpp.Properties.late_matters"
   ],
   "note": "X_late: every history with absorbs after squeezes that stay within the buffered block; late_lost: other bytes of the same number give the same observations. In Ascon, BLAKE2X and Skein late bytes do change the output (late_matters); their effect there is not described."
  },
  {
   "property": "C53",
   "status": "proved",
   "theorems": [
    "Digestpp.Properties.hash_memory_irrelevant",
    "Digestpp.Properties.xof_memory_irrelevant"
   ],
   "note": "Relational invariants between two objects (what is compared of a buffer is what was written since the restart), for all classes; for hash functions without limits, from conformance."
  },
  {
   "property": "C54",
   "status": "proved",
   "theorems": [
    "Digestpp.Properties.hash_reset_forgets",
    "Digestpp.Properties.xof_reset_forgets",
    "Digestpp.Properties.hash_reset_like_new",
    "Digestpp.Properties.xof_reset_like_new"
   ],
   "note": "The relation of C53: absorbing, squeezing and init keep the members that init reads."
  },
  {
   "property": "C55",
   "status": "proved",
   "theorems": [
    "Digestpp.Properties.md5_extends",
    "Digestpp.Properties.sha1_extends",
    "Digestpp.Properties.sha256_extends",
    "Digestpp.Properties.sha512_extends",
    "Digestpp.Properties.sha512_static_extends",
    "Digestpp.Properties.sm3_extends",
    "Digestpp.Properties.whirlpool_extends",
    "Digestpp.Properties.extends_collision"
   ],
   "note": "Extends: on observations of two objects. The functions that continue are in Spec/Extension.lean and see the digest and the length only."
  },
  {
   "property": "C56",
   "status": "proved",
   "theorems": [
    "Digestpp.Properties.keccak_permutes",
    "Digestpp.Properties.ascon_permutes",
    "Digestpp.Properties.sparkle_permutes",
    "Digestpp.Properties.threefish_permutes",
    "Digestpp.Properties.blake_permutes",
    "Digestpp.Properties.groestl_permutes",
    "Digestpp.Properties.kupyna_permutes",
    "Digestpp.Properties.whirlpool_permutes",
    "Digestpp.Properties.streebog_permutes",
    "Digestpp.Properties.echo_permutes",
    "Digestpp.Properties.jh_permutes",
    "Digestpp.Properties.lsh_permutes"
   ],
   "note": "Stated of the model functions of the code, with the words of the arrays as arguments."
  },
  {
   "property": "C57",
   "status": "proved",
   "theorems": [
    "Digestpp.Properties.md5_feedForward",
    "Digestpp.Properties.sha1_feedForward",
    "Digestpp.Properties.sha256_feedForward",
    "Digestpp.Properties.sha512_feedForward",
    "Digestpp.Properties.sm3_feedForward",
    "Digestpp.Properties.groestl_feedForward",
    "Digestpp.Properties.kupyna_feedForward",
    "Digestpp.Properties.whirlpool_feedForward",
    "Digestpp.Properties.streebog_feedForward",
    "Digestpp.Properties.skein_feedForward",
    "Digestpp.Properties.feedForward_fixed_point"
   ],
   "note": "feedForward_fixed_point applies to each of the others."
  },
  {
   "property": "C58",
   "status": "proved",
   "theorems": [
    "Digestpp.Properties.md5_locals",
    "Digestpp.Properties.sha1_locals",
    "Digestpp.Properties.sha256_locals",
    "Digestpp.Properties.sha512_locals",
    "Digestpp.Properties.sha512t_locals",
    "Digestpp.Properties.sm3_locals",
    "Digestpp.Properties.sm3_locals_any",
    "Digestpp.Properties.keccak_locals",
    "Digestpp.Properties.keccak_permute_locals",
    "Digestpp.Properties.blake_locals",
    "Digestpp.Properties.blake2s_locals",
    "Digestpp.Properties.blake2b_locals",
    "Digestpp.Properties.blake2_key_locals",
    "Digestpp.Properties.skein_locals",
    "Digestpp.Properties.groestl_locals",
    "Digestpp.Properties.groestl_output_locals",
    "Digestpp.Properties.kupyna_locals",
    "Digestpp.Properties.kupyna_output_locals",
    "Digestpp.Properties.whirlpool_locals",
    "Digestpp.Properties.streebog_locals",
    "Digestpp.Properties.lsh_locals",
    "Digestpp.Properties.lsh_buffer_locals",
    "Digestpp.Properties.jh_locals",
    "Digestpp.Properties.echo_locals",
    "Digestpp.Properties.echo_buffer_locals",
    "Digestpp.Properties.esch_locals",
    "Digestpp.Properties.sparkle_locals",
    "Digestpp.Properties.ascon_locals",
    "Digestpp.Properties.encode_locals",
    "Digestpp.Properties.cshake_locals",
    "Digestpp.Properties.kmac_locals",
    "Digestpp.Properties.k12_locals"
   ],
   "note": "Checked transcriptions in Model/Locals, proved equal to the model for all initial contents of the arrays."
  },
  {
   "property": "C59",
   "status": "partial",
   "theorems": [
    "Digestpp.Properties.md5_pointers_partial",
    "Digestpp.Properties.null_pointer",
    "Digestpp.Properties.aligned_fault",
    "Digestpp.Properties.aligned_faults",
    "Digestpp.Properties.buffers_aligned",
    "Digestpp.Properties.sha1_pointers_partial",
    "Digestpp.Properties.sm3_pointers_partial",
    "Digestpp.Properties.sha2_pointers_partial",
    "Digestpp.Properties.sha3_pointers_partial",
    "Digestpp.Properties.shake_pointers_partial",
    "Digestpp.Properties.blake_pointers_partial",
    "Digestpp.Properties.blake_salt_pointer_partial",
    "Digestpp.Properties.blake2_pointers_partial",
    "Digestpp.Properties.skein_pointers_partial",
    "Digestpp.Properties.groestl_pointers_partial",
    "Digestpp.Properties.kupyna_pointers_partial",
    "Digestpp.Properties.whirlpool_pointers_partial",
    "Digestpp.Properties.streebog_pointers_partial",
    "Digestpp.Properties.jh_pointers_partial",
    "Digestpp.Properties.esch_pointers_partial",
    "Digestpp.Properties.ascon_pointers_partial",
    "Digestpp.Properties.copying_pointers_partial",
    "Digestpp.Properties.bytes_faults"
   ],
   "note": "False as stated: misaligned word reads and memcpy from a null pointer. The theorems give exactly the sequences of calls with these faults (PointersDecide), and what is in order. BLAKE2p and the k12 family feed inner objects with derived pointers and are not covered."
  },
  {
   "property": "C60",
   "status": "proved",
   "theorems": [
    "Digestpp.Properties.sha3_inner",
    "Digestpp.Properties.shake_inner",
    "Digestpp.Properties.sponge_results",
    "Digestpp.Properties.cshake_inner",
    "Digestpp.Properties.kmac_inner",
    "Digestpp.Properties.kmac_xof_inner",
    "Digestpp.Properties.ascon_inner",
    "Digestpp.Properties.esch_inner",
    "Digestpp.Properties.sha3_extends",
    "Digestpp.Properties.shake_extends",
    "Digestpp.Properties.ascon_extends",
    "Digestpp.Properties.esch_extends",
    "Digestpp.Properties.keccak_next_block"
   ],
   "note": "Uses that the permutations are injective (C56) and that the inputs determine parameters and message (C40, C48). The k12 family (tree hashing) is not covered."
  },
  {
   "property": "C61",
   "status": "proved",
   "theorems": [
    "Digestpp.Properties.sha224_sha256_differ",
    "Digestpp.Properties.sha512_differ",
    "Digestpp.Properties.groestl_differ",
    "Digestpp.Properties.echo_differ",
    "Digestpp.Properties.streebog_differ",
    "Digestpp.Properties.blake_differ",
    "Digestpp.Properties.jh_differ",
    "Digestpp.Properties.lsh_differ",
    "Digestpp.Properties.blake2b_differ",
    "Digestpp.Properties.blake2s_differ",
    "Digestpp.Properties.ascon_differ",
    "Digestpp.Properties.keccak_suffixes",
    "Digestpp.Properties.k12_suffixes",
    "Digestpp.Properties.kmac_separate",
    "Digestpp.Properties.kmac_sizes",
    "Digestpp.Properties.kupyna_truncates"
   ],
   "note": "chaining values of constructed objects, for every pair of different accepted sizes or kinds; for JH, LSH and Ascon after any common message; kupyna_truncates is the exception; LSH on machines that reduce shift counts, as for C22; Streebog and BLAKE also accept other sizes (C35), which are not covered except for Streebog against 512 bits"
  },
  {
   "property": "C62",
   "status": "proved",
   "theorems": [
    "Digestpp.Properties.md5_narrow",
    "Digestpp.Properties.sha1_narrow",
    "Digestpp.Properties.sha224_narrow",
    "Digestpp.Properties.sha256_narrow",
    "Digestpp.Properties.sha512_narrow",
    "Digestpp.Properties.sha512_init_narrow",
    "Digestpp.Properties.sm3_narrow",
    "Digestpp.Properties.whirlpool_narrow",
    "Digestpp.Properties.groestl_narrow",
    "Digestpp.Properties.jh_narrow",
    "Digestpp.Properties.kupyna_narrow",
    "Digestpp.Properties.echo_narrow",
    "Digestpp.Properties.streebog_narrow",
    "Digestpp.Properties.blake_narrow",
    "Digestpp.Properties.blake2b_narrow",
    "Digestpp.Properties.blake2s_narrow",
    "Digestpp.Properties.md5_wraps"
   ],
   "note": "Model/Width writes update and the block loops again with every size_t product modulo 2^z. init, final and clear are not written again: their size_t values are below 2048 and a difference that wrapped would be out of bounds in the model. md5_wraps shows that the limit on the length of one call is needed."
  },
  {
   "property": "C63",
   "status": "proved",
   "theorems": [
    "Digestpp.Properties.threads_alone",
    "Digestpp.Properties.threads_prefix",
    "Digestpp.Properties.threads_finish",
    "Digestpp.Properties.threads_no_race",
    "Digestpp.Properties.threads_const_keep",
    "Digestpp.Properties.threads_digest",
    "Digestpp.Properties.threads_lost",
    "Digestpp.Properties.someCalls_disciplined"
   ],
   "note": "Calls are divided into accesses to parts of the object in any way (Impl); simplification: within one call the reads come before the writes. threads_lost is the third point of the README section."
  },
  {
   "property": "C64",
   "status": "proved",
   "theorems": [
    "Digestpp.Properties.k12_tree_collision",
    "Digestpp.Properties.k12_leaf_collision",
    "Digestpp.Properties.blake2p_tree_collision",
    "Digestpp.Properties.blake2p_full_collision",
    "Digestpp.Properties.blake2x_tree_collision",
    "Digestpp.Properties.blake2xof_tree_collision",
    "Digestpp.Properties.hash_same_digest",
    "Digestpp.Properties.xof_same_output",
    "Digestpp.Properties.md5_objects_collide",
    "Digestpp.Properties.k12_objects_collide"
   ],
   "note": "The functions are those of C10, C13, C14, which the objects compute; hash_same_digest and xof_same_output carry C51, C60 and C64 over to objects."
  },
  {
   "property": "C65",
   "status": "proved",
   "theorems": [
    "Digestpp.Properties.absorb_stream_any_state",
    "Digestpp.Properties.good_stream_absorbed",
    "Digestpp.Properties.stream_exceptions_lose_tail",
    "Digestpp.Properties.stream_exceptions_lose_all",
    "Digestpp.Properties.hash_calls",
    "Digestpp.Properties.hash_calls_tree",
    "Digestpp.Properties.xof_calls",
    "Digestpp.Properties.hexdigest_truncated",
    "Digestpp.Properties.kmac_failed_reset",
    "Digestpp.Properties.kmac_destructor_needs_memory",
    "Digestpp.Properties.blake2bp_torn_key",
    "Digestpp.Properties.blake2sp_torn_key",
    "Digestpp.Properties.mixed_same"
   ],
   "note": "hash_calls, hash_calls_tree and xof_calls take any conformance theorem of the class (C03 to C27) as hypothesis. The exceptions named in the statement have their exact behaviour proved; see findings 17 to 20."
  },
  {
   "property": "C66",
   "status": "proved",
   "theorems": [
    "Digestpp.Properties.md5_trace",
    "Digestpp.Properties.sha1_trace",
    "Digestpp.Properties.sha256_trace",
    "Digestpp.Properties.sha512_trace",
    "Digestpp.Properties.sm3_trace",
    "Digestpp.Properties.keccak_permute_trace",
    "Digestpp.Properties.keccak_trace",
    "Digestpp.Properties.blake_trace",
    "Digestpp.Properties.blake2s_trace",
    "Digestpp.Properties.blake2b_trace",
    "Digestpp.Properties.skein_trace",
    "Digestpp.Properties.lsh256_trace",
    "Digestpp.Properties.lsh512_trace",
    "Digestpp.Properties.esch_trace",
    "Digestpp.Properties.ascon_trace",
    "Digestpp.Properties.jh_trace",
    "Digestpp.Properties.groestl_tells",
    "Digestpp.Properties.kupyna_tells",
    "Digestpp.Properties.whirlpool_tells",
    "Digestpp.Properties.streebog_tells",
    "Digestpp.Properties.echo_tells"
   ],
   "note": "The trace is that of the transformation functions; buffering, padding and output are not traced. Tells: there is a function from traces to (chaining value, data) that is right for every call."
  },
  {
   "property": "C67",
   "status": "proved",
   "theorems": [
    "Digestpp.Properties.md5_hash_trace",
    "Digestpp.Properties.sha1_hash_trace",
    "Digestpp.Properties.sha256_hash_trace",
    "Digestpp.Properties.sha512_hash_trace",
    "Digestpp.Properties.sm3_hash_trace",
    "Digestpp.Properties.jh_hash_trace",
    "Digestpp.Properties.lsh256_hash_trace",
    "Digestpp.Properties.lsh512_hash_trace",
    "Digestpp.Properties.sha3_hash_trace",
    "Digestpp.Properties.blake_hash_trace",
    "Digestpp.Properties.blake2s_run_trace",
    "Digestpp.Properties.blake2b_run_trace",
    "Digestpp.Properties.blake2xs_xof_run_trace",
    "Digestpp.Properties.blake2xb_xof_run_trace",
    "Digestpp.Properties.skein_run_trace",
    "Digestpp.Properties.skein_xof_run_trace",
    "Digestpp.Properties.cshake_run_trace",
    "Digestpp.Properties.kmac_run_trace",
    "Digestpp.Properties.kmac_xof_run_trace",
    "Digestpp.Properties.kmac_key_length",
    "Digestpp.Properties.esch_run_trace",
    "Digestpp.Properties.esch_xof_run_trace",
    "Digestpp.Properties.ascon_run_trace",
    "Digestpp.Properties.ascon_xof_run_trace",
    "Digestpp.Properties.ascon_cxof_run_trace",
    "Digestpp.Properties.blake2sp_run_trace",
    "Digestpp.Properties.blake2bp_run_trace",
    "Digestpp.Properties.k12_run_trace"
   ],
   "note": "init (where it absorbs strings), update, absorb_bytes, squeeze and final traced. Table-based algorithms are not included, as C66 is false of them."
  },
  {
   "property": "C68",
   "status": "partial",
   "theorems": [
    "Digestpp.Properties.absorb_selects",
    "Digestpp.Properties.absorb_outcomes",
    "Digestpp.Properties.absorb_unique",
    "Digestpp.Properties.squeeze_selects",
    "Digestpp.Properties.squeeze_outcomes",
    "Digestpp.Properties.digest_outcomes",
    "Digestpp.Properties.digest_char_buffer",
    "Digestpp.Properties.digest_selects_partial",
    "Digestpp.Properties.setter_selects",
    "Digestpp.Properties.default_constructor_partial",
    "Digestpp.Properties.jh_default_constructor",
    "Digestpp.Properties.size_constructor_partial",
    "Digestpp.Properties.static_skein_ignores_size",
    "Digestpp.Properties.static_zero",
    "Digestpp.Properties.xof_constructors",
    "Digestpp.Properties.digest_or_squeeze",
    "Digestpp.Properties.literal_absorbed",
    "Digestpp.Properties.char_array_overrun",
    "Digestpp.Properties.other_arrays_rejected",
    "Digestpp.Properties.integers_truncated",
    "Digestpp.Properties.digest_array_unchecked"
   ],
   "note": "False as stated in three places, each with a witness: digest into buffers of char, the default constructor of JH, the size argument of static Skein. All other cases are proved, and the exact outcome in these."
  },
  {
   "property": "C69",
   "status": "proved",
   "theorems": [
    "Digestpp.Properties.groestl_wide_trail_p",
    "Digestpp.Properties.groestl_wide_trail_q",
    "Digestpp.Properties.kupyna_wide_trail_p",
    "Digestpp.Properties.whirlpool_wide_trail",
    "Digestpp.Properties.whirlpool_wide_trail_key",
    "Digestpp.Properties.streebog_wide_trail",
    "Digestpp.Properties.streebog_wide_trail_key",
    "Digestpp.Properties.echo_wide_trail",
    "Digestpp.Properties.echo_four_rounds",
    "Digestpp.Properties.groestl_active",
    "Digestpp.Properties.whirlpool_active",
    "Digestpp.Properties.streebog_active"
   ],
   "note": "For the round functions of the model, any keys and constants. The second permutation of Kupyna adds constants modulo 2^64, which does not keep patterns of bytes; it is not part of the claim."
  },
  {
   "property": "C70",
   "status": "proved",
   "theorems": [
    "Digestpp.Properties.streebog_tklog",
    "Digestpp.Properties.streebog_tklog_total",
    "Digestpp.Properties.streebog_linear",
    "Digestpp.Properties.streebog_tables",
    "Digestpp.Properties.groestl_uniformity",
    "Digestpp.Properties.echo_uniformity",
    "Digestpp.Properties.kupyna_uniformity",
    "Digestpp.Properties.whirlpool_uniformity",
    "Digestpp.Properties.streebog_uniformity"
   ],
   "note": "For the tables of the model, which are those of the code."
  },
  {
   "property": "C71",
   "status": "proved",
   "theorems": [
    "Digestpp.Properties.md5_source",
    "Digestpp.Properties.sha1_source",
    "Digestpp.Properties.sha224_source",
    "Digestpp.Properties.sha256_source",
    "Digestpp.Properties.sha512_source",
    "Digestpp.Properties.sha512_absorb_source",
    "Digestpp.Properties.whirlpool_source",
    "Digestpp.Properties.sha3_source",
    "Digestpp.Properties.shake_source",
    "Digestpp.Properties.cshake_source",
    "Digestpp.Properties.cshake_source_regular",
    "Digestpp.Properties.kmac_source",
    "Digestpp.Properties.kmac_xof_source",
    "Digestpp.Properties.kmac_source_regular",
    "Digestpp.Properties.kmac_xof_source_regular",
    "Digestpp.Properties.ascon_hash_source",
    "Digestpp.Properties.ascon_xof_source",
    "Digestpp.Properties.ascon_cxof_source",
    "Digestpp.Properties.esch256_source",
    "Digestpp.Properties.esch384_source",
    "Digestpp.Properties.esch256_xof_source",
    "Digestpp.Properties.esch384_xof_source",
    "Digestpp.Properties.sm3_source_undefined",
    "Digestpp.Properties.load_inside",
    "Digestpp.Properties.element_inside",
    "Digestpp.Properties.copy_inside",
    "Digestpp.Properties.shift_meaning",
    "Digestpp.Properties.int_meaning",
    "Digestpp.Properties.word_meaning",
    "Digestpp.Properties.read_meaning",
    "Digestpp.Properties.memcpy_meaning"
   ],
   "note": "About the translated text (Cpp/Src, by tools/cpp2lean.py) and not about the model. The second line is about the interpreter."
  },
  {
   "property": "C72",
   "status": "proved",
   "theorems": [
    "Digestpp.Properties.md5_clear_source",
    "Digestpp.Properties.sha1_clear_source",
    "Digestpp.Properties.sha256_clear_source",
    "Digestpp.Properties.sha512_clear_source",
    "Digestpp.Properties.sha3_clear_source",
    "Digestpp.Properties.whirlpool_clear_source",
    "Digestpp.Properties.ascon_clear_source",
    "Digestpp.Properties.esch256_clear_source",
    "Digestpp.Properties.esch384_clear_source",
    "Digestpp.Properties.sm3_clear_source",
    "Digestpp.Properties.jh_clear_source",
    "Digestpp.Properties.groestl_clear_source",
    "Digestpp.Properties.kupyna_clear_source",
    "Digestpp.Properties.streebog_clear_source",
    "Digestpp.Properties.echo_clear_source",
    "Digestpp.Properties.lsh256_clear_source",
    "Digestpp.Properties.lsh512_clear_source",
    "Digestpp.Properties.blake_clear_source",
    "Digestpp.Properties.shake_clear_source",
    "Digestpp.Properties.blake2b_clear_source",
    "Digestpp.Properties.blake2s_clear_source",
    "Digestpp.Properties.skein256_clear_source",
    "Digestpp.Properties.skein512_clear_source",
    "Digestpp.Properties.skein1024_clear_source"
   ],
   "note": "not translated: KMAC, K12, BLAKE2 parallel, whose clear calls that of members; the string of Ascon-CXOF is not erased, see C45"
  }
 ]
}