{
 "claims": [
  {
   "property": "C01",
   "status": "partial",
   "theorems": [
    "Verif.Signer.C01_order_partial",
    "Verif.Signer.C01_complete",
    "Verif.Signer.C01_exact_prefix_count_false",
    "Verif.Signer.C01_upload_outside_output_phase"
   ],
   "note": "The device accepts exactly prefixes of the protocol, but the number of accepted input-prefix messages is only checked when the outputs start; range-proof uploads may be interleaved."
  },
  {
   "property": "C02",
   "status": "partial",
   "theorems": [
    "Verif.Signer.C02_nothing_to_resume_partial",
    "Verif.Signer.C02_init_forgets",
    "Verif.Signer.C02_unparsable_message_keeps_session",
    "Verif.Signer.C02_unserialisable_answer"
   ],
   "note": "Fails only for messages that do not parse and for answers that do not serialise: there the saved session is kept; both cases are proved."
  },
  {
   "property": "C03",
   "status": "proved",
   "theorems": [
    "Verif.Signer.C03_confirmed"
   ],
   "note": ""
  },
  {
   "property": "C04",
   "status": "proved",
   "theorems": [
    "Verif.Signer.C04_counts"
   ],
   "note": ""
  },
  {
   "property": "C05",
   "status": "partial",
   "theorems": [
    "Verif.Pb.C05_boundary_not_unique",
    "Verif.Signer.C05_prefix_input_real",
    "Verif.Signer.C05_signed_input_real",
    "Verif.Signer.C05_prefix_input",
    "Verif.Signer.C05_signed_input",
    "Verif.Signer.C05_false_moved",
    "Verif.Signer.C05_prefix_input_partial",
    "Verif.Signer.C05_signed_input_partial",
    "Verif.Signer.C05_prefix_input_delimited",
    "Verif.Signer.C05_signed_input_delimited",
    "Verif.Signer.C05_bytes_can_move"
   ],
   "note": "With the encoding the repository's message classes give (Dst.pb, Src.pb): what is presented is what was registered, up to a subaddr_minor moved across the boundary (C05_prefix_input_real, C05_signed_input_real); in full for entries without subaddr_minor, which the agent never sets (C05_prefix_input, C05_signed_input). The unrestricted statement is false: C05_false_moved (C05_bytes_can_move for the abstract encoding)."
  },
  {
   "property": "C06",
   "status": "proved",
   "theorems": [
    "Verif.Signer.C06_outputs_real",
    "Verif.Signer.C06_output_confirmed",
    "Verif.Signer.C06_outputs_confirmed",
    "Verif.Signer.C06_wrong_tag_rejected"
   ],
   "note": "C06_outputs_real: with the repository's encoding of destinations, whose injectivity is proved."
  },
  {
   "property": "C07",
   "status": "proved",
   "theorems": [
    "Verif.Signer.C07_value_conserved",
    "Verif.Signer.C07_fee_reported"
   ],
   "note": ""
  },
  {
   "property": "C08",
   "status": "partial",
   "theorems": [
    "Verif.Signer.C08_masks_balance_partial",
    "Verif.Signer.C08_false_for_repeated_input"
   ],
   "note": "Needs that the permutation names no input twice and that tags and sealed masks presented were issued; false otherwise (witness)."
  },
  {
   "property": "C09",
   "status": "partial",
   "theorems": [
    "Verif.Signer.C09_false",
    "Verif.Signer.C09_signed_once_partial"
   ],
   "note": "False in general (C09_false); true when the permutation has no repetition."
  },
  {
   "property": "C10",
   "status": "partial",
   "theorems": [
    "Verif.Signer.C10_covered_partial",
    "Verif.Signer.C10_false_no_upload",
    "Verif.Signer.C10_false_grouping"
   ],
   "note": "False in general: proved coverage needs fitting batch sizes and, when offloading, an upload last; witnesses for both failures."
  },
  {
   "property": "C11",
   "status": "proved",
   "theorems": [
    "Verif.Signer.C11_change_owned"
   ],
   "note": ""
  },
  {
   "property": "C12",
   "status": "proved",
   "theorems": [
    "Verif.Signer.C12_attributes",
    "Verif.Signer.C12_owner_not_saved",
    "Verif.Signer.C12_restored",
    "Verif.Signer.C12_suspension"
   ],
   "note": ""
  },
  {
   "property": "C13",
   "status": "proved",
   "theorems": [
    "Verif.Signer.C13_buffers_separate",
    "Verif.Signer.C13_secrets_separate",
    "Verif.Signer.C13_input_keys",
    "Verif.Signer.C13_output_keys",
    "Verif.Signer.C13_no_truncation",
    "Verif.Signer.C13_room",
    "Verif.Signer.C13_no_index_is_index_zero"
   ],
   "note": ""
  },
  {
   "property": "C14",
   "status": "proved",
   "theorems": [
    "Verif.Signer.C14_streaming",
    "Verif.Signer.C14_streaming_eq_oneshot",
    "Verif.Signer.C14_device"
   ],
   "note": ""
  },
  {
   "property": "C15",
   "status": "proved",
   "theorems": [
    "Verif.KiSync.C15_released_only_for_committed",
    "Verif.KiSync.C15_answers_encrypted",
    "Verif.KiSync.C15_error_drops",
    "Verif.KiSync.C15_hashed_bytes_injective",
    "Verif.KiSync.C15_hashed_bytes_ambiguous"
   ],
   "note": "Every message history of the device; hash, key image computation and cipher are parameters. The bytes hashed per output are injective for 32 byte keys."
  },
  {
   "property": "C16",
   "status": "partial",
   "theorems": [
    "Verif.KiSync.C16_import_partial",
    "Verif.KiSync.C16_false"
   ],
   "note": "False: for every count divisible by ten (also zero) the import fails, because chunking yields an empty trailing batch the device refuses (C16_false). Proved for every other count (C16_import_partial)."
  },
  {
   "property": "C17",
   "status": "proved",
   "theorems": [
    "Verif.Batches.C17_batches",
    "Verif.Batches.C17_multi_output",
    "Verif.Batches.C17_refused"
   ],
   "note": "All output counts, both proof kinds; refusals characterised."
  },
  {
   "property": "C18",
   "status": "partial",
   "theorems": [
    "Verif.Batches.C18_device",
    "Verif.Batches.C18_agree_partial",
    "Verif.Batches.C18_layout_of_host",
    "Verif.Batches.C18_false_client0",
    "Verif.Batches.C18_single_batch"
   ],
   "note": "Proved for all positive layouts when the device proves or the host proves with client version 1 (the default). False for client version 0 with more than one batch: the host never advances to the next batch (C18_false_client0)."
  },
  {
   "property": "C19",
   "status": "proved",
   "theorems": [
    "Verif.Varint.C19_uvarint_roundtrip",
    "Verif.Varint.C19_uvarint_negative_rejected",
    "Verif.Varint.C19_uvarint_prefix_free",
    "Verif.Varint.C19_uvarint_truncated_rejected"
   ],
   "note": "Round trip, prefix freeness, rejection of negatives and of truncated encodings."
  },
  {
   "property": "C20",
   "status": "proved",
   "theorems": [
    "Verif.Varint.C20_sint_roundtrip",
    "Verif.Varint.C20_uint_roundtrip"
   ],
   "note": "Both directions of the bijection."
  },
  {
   "property": "C21",
   "status": "proved",
   "theorems": [
    "Verif.Pb.C21_roundtrip",
    "Verif.Pb.C21_injective",
    "Verif.Pb.C21_unknown_skipped"
   ],
   "note": "For every schema with distinct tags and every well-typed message, including unknown fields between known ones."
  },
  {
   "property": "C22",
   "status": "partial",
   "theorems": [
    "Verif.Pb.C22_truncated_partial",
    "Verif.Pb.C22_false",
    "Verif.Pb.C22_false_key",
    "Verif.Pb.C22_false_nested",
    "Verif.Pb.C22_nested_limit"
   ],
   "note": "False as stated: truncated bytes values are zero padded and cut keys end the message silently (witnesses). Proved: a cut inside the integer behind a key is rejected; nested limits are enforced."
  },
  {
   "property": "C23",
   "status": "proved",
   "theorems": [
    "Verif.B58.C23_roundtrip",
    "Verif.B58.C23_roundtrip_bin",
    "Verif.B58.C23_length",
    "Verif.B58.C23_injective",
    "Verif.B58.C23_empty_bin"
   ],
   "note": "All byte strings; the data_bin entry point rejects the empty argument."
  },
  {
   "property": "C24",
   "status": "partial",
   "theorems": [
    "Verif.B58.C24_false",
    "Verif.B58.C24_false_everywhere",
    "Verif.B58.C24_canonical_partial",
    "Verif.B58.C24_injective_partial"
   ],
   "note": "False as stated: the block jpXCZedGfVR (2^64) decodes to zeros, in every position. Canonical for all other texts."
  },
  {
   "property": "C25",
   "status": "proved",
   "theorems": [
    "Verif.Addr.C25_roundtrip",
    "Verif.Addr.C25_injective",
    "Verif.Addr.C25_checksum",
    "Verif.Addr.C25_bad_checksum_rejected",
    "Verif.Addr.C25_canonical",
    "Verif.Addr.C25_length_not_checked",
    "Verif.Addr.C25_empty_payment_id"
   ],
   "note": "Round trip, checksum, injectivity and canonical text; also shown: the length of the data is not checked and an empty payment id gives an integrated prefix."
  },
  {
   "property": "C26",
   "status": "partial",
   "theorems": [
    "Verif.Addr.C26_false",
    "Verif.Addr.C26_false_recompute",
    "Verif.Addr.C26_flag_partial"
   ],
   "note": "False as stated: (0,0) is flagged when building, indices on an axis are not flagged when recomputing."
  },
  {
   "property": "C27",
   "status": "proved",
   "theorems": [
    "Verif.B58.C27_roundtrip",
    "Verif.B58.C27_canonical",
    "Verif.B58.C27_check"
   ],
   "note": "Round trip, canonical decoding, and base58check accepts exactly the encodings."
  },
  {
   "property": "C28",
   "status": "proved",
   "theorems": [
    "Verif.Mnemonic.C28_standard",
    "Verif.Mnemonic.C28_roundtrip",
    "Verif.Mnemonic.C28_other_lengths",
    "Verif.Mnemonic.C28_overflow_accepted"
   ],
   "note": "With and without checksum word, for the actual word list; seeds of other lengths lose their tail silently; triples above 32 bits are accepted."
  },
  {
   "property": "C29",
   "status": "partial",
   "theorems": [
    "Verif.Mnemonic.C29_false",
    "Verif.Mnemonic.C29_false_concrete"
   ],
   "note": "False: proved that the checksum word never has an influence (n % 3 tests the word list size, 1626, instead of the number of words)."
  },
  {
   "property": "C30",
   "status": "partial",
   "theorems": [
    "Verif.Bip.C30_exact",
    "Verif.Bip.C30_roundtrip_partial",
    "Verif.Bip.C30_false",
    "Verif.Bip.C30_word_seed"
   ],
   "note": "Exact result for every length proved: true when 8*len mod 11 is 0 or at least 8, otherwise the last byte is lost. Word seeds of 32 bytes come back with a 33rd byte."
  },
  {
   "property": "C31",
   "status": "partial",
   "theorems": [
    "Verif.Bip.C31_history_partial",
    "Verif.Bip.C31_positional",
    "Verif.Bip.C31_false",
    "Verif.Bip.C31_false_private",
    "Verif.Bip.C31_index",
    "Verif.Bip.C31_index_injective"
   ],
   "note": "Proved for positional lookups and for histories without value conflicts; false for keyword arguments (wrong hardening, private key returned)."
  },
  {
   "property": "C32",
   "status": "proved",
   "theorems": [
    "Verif.Offsets.C32_roundtrip",
    "Verif.Offsets.C32_roundtrip_sorted",
    "Verif.Offsets.C32_nonneg",
    "Verif.Offsets.C32_distinct"
   ],
   "note": "Running sums are the network's decoding. The in-place loop is proved equal to the model's differences."
  },
  {
   "property": "C33",
   "status": "proved",
   "theorems": [
    "Verif.Common.C33_checker",
    "Verif.Common.C33_invalid_rejected",
    "Verif.Common.C33_apply",
    "Verif.Common.C33_sorted"
   ],
   "note": "Loop terminates for every valid permutation; the sequence of swaps depends on the permutation only."
  },
  {
   "property": "C34",
   "status": "proved",
   "theorems": [
    "Verif.Common.C34_chunk",
    "Verif.Common.C34_trailing_empty",
    "Verif.Common.C34_size_zero_diverges"
   ],
   "note": "Positive sizes; size zero never terminates (C34_size_zero_diverges); a trailing empty chunk appears exactly when the size divides the length."
  },
  {
   "property": "C35",
   "status": "partial",
   "theorems": [
    "Verif.Ed.C35_int_roundtrip",
    "Verif.Ed.C35_int_bytes",
    "Verif.Ed.C35_scalar_roundtrip",
    "Verif.Ed.C35_scalar_range",
    "Verif.Ed.C35_field_limbs",
    "Verif.Ed.C35_scalar_limbs",
    "Verif.Ed.C35_signed_limbs",
    "Verif.Ed.C35_false_signed",
    "Verif.Ed.C35_signed_partial",
    "Verif.Ed.C35_const_limbs"
   ],
   "note": "Byte and limb encodings of scalars and field elements; C35_false_signed: decoding the signed limb form is wrong for some negative representatives (the last carry is dropped), C35_signed_partial for the others."
  },
  {
   "property": "C36",
   "status": "partial",
   "theorems": [
    "Verif.Key.C36_extra_parses",
    "Verif.Key.C36_payment_id_recovered_partial",
    "Verif.Key.C36_false_zero_amount"
   ],
   "note": "The extra field of every transaction parses back to its fields; long ids verbatim; short ids decrypt for standard and sub-address recipients, provided amounts other than change are positive. Proved false for a sub-address recipient next to another destination with amount zero. The parsing of the variant fields belongs to the serialization library and is modelled from its format."
  },
  {
   "property": "C37",
   "status": "proved",
   "theorems": [
    "Verif.Key.C37_amount_v1",
    "Verif.Key.C37_amount_v2",
    "Verif.Key.C37_large_refused",
    "Verif.Key.C37_decoded_opens"
   ],
   "note": "Both encodings, through serialization and the host's parsing; Keccak is a parameter with 32-byte digests. Sender and recipient share the amount key by C38."
  },
  {
   "property": "C38",
   "status": "proved",
   "theorems": [
    "Verif.Key.C38_table_valid",
    "Verif.Key.C38_recipient_can_spend",
    "Verif.Key.C38_flags_needed",
    "Verif.Key.C38_secret_standard",
    "Verif.Key.C38_address_standard",
    "Verif.Key.C38_account_standard"
   ],
   "note": "Whole list of outputs on the sender side, decoding of published keys on the recipient side; hash is a parameter. Hypotheses on flags and change are spelled out; C38_flags_needed shows that consistent flags are needed. Multisig wallets not modelled. Sub-addresses are the standard ones (C38_secret_standard, C38_address_standard)."
  },
  {
   "property": "C39",
   "status": "proved",
   "theorems": [
    "Verif.Key.C39_secret_and_image",
    "Verif.Key.C39_image_unique",
    "Verif.Key.C39_foreign_rejected"
   ],
   "note": "Secret opens the output key, image is x*Hp(P), uniqueness and rejection of foreign outputs. Multisig branch not modelled."
  },
  {
   "property": "C40",
   "status": "partial",
   "theorems": [
    "Verif.Sig.C40_accept_iff",
    "Verif.Sig.C40_schnorr",
    "Verif.Sig.C40_verifies_partial",
    "Verif.Sig.C40_false_zero",
    "Verif.Sig.C40_ring_accept_iff",
    "Verif.Sig.C40_ring_partial",
    "Verif.Sig.C40_export"
   ],
   "note": "The produced pair satisfies the Schnorr equation for every message, key and nonce, and the checker accepts exactly the valid pairs; but it raises when the challenge or the answer is zero, e.g. for key 0 and nonce 0 (C40_false_zero). Ring signatures of every size and position, and the key image export, are accepted unless one of the scalars is zero (C40_ring_partial, C40_export)."
  },
  {
   "property": "C41",
   "status": "proved",
   "theorems": [
    "Verif.Sig.C41_borromean",
    "Verif.Sig.C41_accept_iff",
    "Verif.Sig.C41_range",
    "Verif.Sig.C41_mem_same",
    "Verif.Sig.C41_too_large",
    "Verif.Sig.C41_chunked",
    "Verif.Sig.C41_chunked_truncates",
    "Verif.Sig.C41_flatten_roundtrip",
    "Verif.Sig.C41_wire",
    "Verif.Sig.C41_range_accept_iff"
   ],
   "note": "Borromean signature for every bit vector; range proofs for every amount below 2^64 in the three variants (the memory saving one is equal to the original, the chunked one byte for byte the encoding of it), the commitment opens to mask and amount, the prescribed mask is met, the proof survives encoding, flattening, inflating and decoding. Amounts of 2^64 and more raise, except in the chunked variant, which silently proves the amount modulo 2^64 (C41_chunked_truncates)."
  },
  {
   "property": "C42",
   "status": "proved",
   "theorems": [
    "Verif.Sig.C42_simple",
    "Verif.Sig.C42_device",
    "Verif.Sig.C42_device_releases_valid",
    "Verif.Sig.C42_full",
    "Verif.Sig.C42_accept_iff"
   ],
   "note": "Simple and full MLSAG for every ring size from two, every position, message, masks that balance, and all random scalars; the signing step of the device; acceptance is equivalent to the closing of the ring (C42_accept_iff). Multisig branches are not modelled."
  },
  {
   "property": "C43",
   "status": "proved",
   "theorems": [
    "Verif.Sig.C43_complete",
    "Verif.Sig.C43_accept_iff"
   ],
   "note": "For every ring size from one, position, keys, masks and random scalars; acceptance is equivalent to the closing of the ring (C43_accept_iff)."
  },
  {
   "property": "C44",
   "status": "proved",
   "theorems": [
    "Verif.Bp.C44_equations",
    "Verif.Bp.C44_complete",
    "Verif.Bp.C44_batch",
    "Verif.Bp.C44_produces",
    "Verif.Bp.C44_generators",
    "Verif.Bp.C44_refused",
    "Verif.Bp.C44_verify_bp",
    "Verif.Bp.C44_accept_iff",
    "Verif.Bp.C44_weights",
    "Verif.Bp.C44_checks"
   ],
   "note": "For 1 to 32 amounts, every mask and all prover randomness: single and batched verification accept for all weights; a proof is always produced if no hash is zero modulo the group order. Acceptance of encoded proofs is characterised by the two Bulletproof equations (C44_accept_iff, C44_weights); C44_checks holds for arbitrary bytes. A zero x_ip is not noticed by the prover and rejected by the verifier (hypothesis Nonzero)."
  },
  {
   "property": "C45",
   "status": "partial",
   "theorems": [
    "Verif.Bp.C45_false_mask",
    "Verif.Bp.C45_false_guess"
   ],
   "note": "The property is false of the code: C45_false_mask computes the mask of a one-amount proof from the proof, C45_false_guess shows that A and S do not depend on the masks, so guesses of the amounts can be tested."
  },
  {
   "property": "C46",
   "status": "partial",
   "theorems": [
    "Verif.KeyV.C46_powers_partial",
    "Verif.KeyV.C46_powers_scan",
    "Verif.KeyV.C46_powers_rewind",
    "Verif.KeyV.C46_false_powers",
    "Verif.KeyV.C46_prng_partial",
    "Verif.KeyV.C46_false_prng",
    "Verif.KeyV.C46_prng_scan",
    "Verif.KeyV.C46_r0_partial",
    "Verif.KeyV.C46_r0_scan",
    "Verif.KeyV.C46_r0_restored_partial",
    "Verif.KeyV.C46_false_r0"
   ],
   "note": "Proved for histories without failed reads (random vectors: starting at index zero) and for scans, rewinding and restoring; false in general: C46_false_powers, C46_false_prng, C46_false_r0 return stale or shifted values after a caught exception, a first access elsewhere, or restoring."
  },
  {
   "property": "C47",
   "status": "partial",
   "theorems": [
    "Verif.KeyV.C47_history_partial",
    "Verif.KeyV.C47_new",
    "Verif.KeyV.C47_false_index",
    "Verif.KeyV.C47_shrink",
    "Verif.KeyV.C47_grow_partial",
    "Verif.KeyV.C47_false_grow",
    "Verif.KeyV.C47_copy_partial",
    "Verif.KeyV.C47_false_copy",
    "Verif.KeyV.C47_save",
    "Verif.KeyV.C47_false_save"
   ],
   "note": "Histories of reads and writes with indices not below -size, shrinking, growing in chunks, copying and saving are proved to refine a list. False in general: C47_false_index, C47_false_grow, C47_false_copy, C47_false_save."
  },
  {
   "property": "C48",
   "status": "proved",
   "theorems": [
    "Verif.Bp.C48_wire",
    "Verif.Bp.C48_refused",
    "Verif.Bp.C48_roundtrip",
    "Verif.Bp.C48_injective",
    "Verif.Bp.C48_produced"
   ],
   "note": "C48_wire (the bytes are the wire format), C48_roundtrip, C48_injective, C48_refused, C48_produced (proofs the device makes, size announced by bp_size). The parser is that of the external serialization library, taken from the wire format."
  },
  {
   "property": "C49",
   "status": "proved",
   "theorems": [
    "Verif.Ed.C49_on_curve",
    "Verif.Ed.C49_add",
    "Verif.Ed.C49_double",
    "Verif.Ed.C49_neg_sub",
    "Verif.Ed.C49_scalarmult",
    "Verif.Ed.C49_scalarmult_base",
    "Verif.Ed.C49_base",
    "Verif.Ed.C49_equal",
    "Verif.Ed.C49_group",
    "Verif.Ed.C49_order",
    "Verif.Ed.C49_encode_decode",
    "Verif.Ed.C49_encode_injective",
    "Verif.Ed.C49_decoded_on_curve"
   ],
   "note": "Extended-coordinate formulas against the affine Edwards law over ZMod(2^255-19), for all points; group axioms, 8l points, base point of order l, encoding and decoding."
  },
  {
   "property": "C50",
   "status": "proved",
   "theorems": [
    "Verif.Ed.C50_inv",
    "Verif.Ed.C50_inv_power",
    "Verif.Ed.C50_scalar_inv"
   ],
   "note": "Primality of q and l proved by Pratt certificates."
  },
  {
   "property": "C51",
   "status": "proved",
   "theorems": [
    "Verif.Keccak.C51_history",
    "Verif.Keccak.C51_pieces"
   ],
   "note": "C51_history: for any history of update, digest and reset calls the digests are those of the one-shot function on the bytes fed since the last reset; C51_pieces for the default rate and size."
  },
  {
   "property": "C52",
   "status": "proved",
   "theorems": [
    "Verif.Lite.C52_unblind",
    "Verif.Lite.C52_reduces",
    "Verif.Lite.C52_false_order"
   ],
   "note": "C52_unblind: for every state in between, a host that swaps the two answers into the order unblind expects gets amount and mask back; C52_reduces for unreduced scalars. C52_false_order: sent back in the order they came, they do not."
  },
  {
   "property": "C53",
   "status": "partial",
   "theorems": [
    "Verif.Lite.C53_bytes",
    "Verif.Lite.C53_integers",
    "Verif.Lite.C53_refused",
    "Verif.Lite.C53_tag",
    "Verif.Lite.C53_length_partial",
    "Verif.Lite.C53_false_length"
   ],
   "note": "C53_bytes, C53_integers, C53_refused, C53_tag hold for all values; lengths of 128 and more round-trip (C53_length_partial), lengths below 128 never do (C53_false_length)."
  },
  {
   "property": "C54",
   "status": "partial",
   "theorems": [
    "Verif.Enc.C54_roundtrip_plain",
    "Verif.Enc.C54_accepts_iff",
    "Verif.Enc.C54_roundtrip_partial",
    "Verif.Enc.C54_false_zero",
    "Verif.Enc.C54_unsigned_partial",
    "Verif.Enc.C54_unsigned_refused",
    "Verif.Enc.C54_outputs_partial",
    "Verif.Enc.C54_false_version",
    "Verif.Enc.C54_sealed",
    "Verif.Enc.C54_false_associated",
    "Verif.Enc.C54_aes",
    "Verif.Enc.C54_false_aes",
    "Verif.Lite.C54_prekey"
   ],
   "note": "Round trips of the chacha files (C54_roundtrip_plain, C54_unsigned_partial, C54_outputs_partial), exact acceptance (C54_accepts_iff), the authenticated pack (C54_sealed). False: the associated data given on decryption is not used (C54_false_associated), the version byte is outside the signature (C54_false_version), a zero key or nonce cannot be opened again (C54_false_zero), AES encrypts in another mode than it decrypts (C54_false_aes). C54_prekey: the key material the lite device gives out for the wallet cache."
  },
  {
   "property": "C55",
   "status": "proved",
   "theorems": [
    "Verif.Height.C55_terminates",
    "Verif.Height.C55_before",
    "Verif.Height.C55_bracket",
    "Verif.Height.C55_false_unordered"
   ],
   "note": "C55_terminates, C55_before for any timestamps, C55_bracket for chains with increasing timestamps; C55_false_unordered shows the order is needed."
  },
  {
   "property": "C56",
   "status": "proved",
   "theorems": [
    "Verif.Signer.C56_prefix_hash"
   ],
   "note": ""
  },
  {
   "property": "C57",
   "status": "proved",
   "theorems": [
    "Verif.Signer.C57_signature"
   ],
   "note": ""
  },
  {
   "property": "C58",
   "status": "partial",
   "theorems": [
    "Verif.Ed.C58_false",
    "Verif.Ed.C58_false_sign",
    "Verif.Ed.C58_partial"
   ],
   "note": "C58_false, C58_false_sign: y >= q and a sign bit on x = 0 are accepted. C58_partial covers all other strings."
  },
  {
   "property": "C59",
   "status": "partial",
   "theorems": [
    "Verif.Ed.C59_check_partial",
    "Verif.Ed.C59_dead_check",
    "Verif.Ed.C59_false_eq",
    "Verif.Ed.C59_sc_check"
   ],
   "note": "check_ed25519point and sc_check are exact; ge_frombytes_vartime_check never rejects (C59_dead_check) and point_eq does not check its second argument (C59_false_eq)."
  },
  {
   "property": "C60",
   "status": "proved",
   "theorems": [
    "Verif.Ed.C60_hash_to_point"
   ],
   "note": "The Keccak hash is a parameter: the theorem is for every 32-byte hash value."
  },
  {
   "property": "C61",
   "status": "proved",
   "theorems": [
    "Verif.Ed.C61_mul_inv_eight",
    "Verif.Ed.C61_false_torsion"
   ],
   "note": "Also C61_false_torsion: outside the prime-order subgroup the cofactor component is lost."
  },
  {
   "property": "C62",
   "status": "proved",
   "theorems": [
    "Verif.Keccak.C62_standard",
    "Verif.Keccak.C62_keccak256",
    "Verif.Keccak.C62_permutation",
    "Verif.Keccak.C62_size"
   ],
   "note": "C62_standard, C62_keccak256, C62_permutation, C62_size, against a bit-level specification of the sponge (Spec/Keccak.lean). Digests longer than the rate and hexdigest (which raises on Python 3) are outside."
  },
  {
   "property": "C63",
   "status": "partial",
   "theorems": [
    "Verif.Lite.C63_output",
    "Verif.Lite.C63_chain_partial",
    "Verif.Lite.C63_false_bypass"
   ],
   "note": "C63_output for every state and command; C63_chain_partial for hosts that send only the protocol's commands. C63_false_bypass: an amount blinded again after the start of the prehash stands in for a validated output, so the user misses it."
  },
  {
   "property": "C64",
   "status": "partial",
   "theorems": [
    "Verif.Lite.C64_mode_partial",
    "Verif.Lite.C64_message_partial",
    "Verif.Lite.C64_false_unconfirmed"
   ],
   "note": "Refuted: C64_false_unconfirmed, from every state, for every challenge tail. What holds: the mode is the one asked for and a fake response uses no secret of the device (C64_mode_partial); the message kept in the device covers exactly the validated outputs and commitments, for hosts that send nothing in between (C64_message_partial)."
  },
  {
   "property": "C65",
   "status": "partial",
   "theorems": [
    "Verif.Lite.C65_false_reuse"
   ],
   "note": "Refuted: C65_false_reuse, from every state; the host computes the secret key."
  },
  {
   "property": "C66",
   "status": "partial",
   "theorems": [
    "Verif.Lite.C66_accepts_partial",
    "Verif.Lite.C66_false_half",
    "Verif.Lite.C66_false_public"
   ],
   "note": "C66_accepts_partial: the answer and the stored secrets. False: a refused command may store the view secret (C66_false_half), the public keys never change (C66_false_public)."
  },
  {
   "property": "C67",
   "status": "partial",
   "theorems": [
    "Verif.Lite.C67_mode0_partial",
    "Verif.Lite.C67_false_own"
   ],
   "note": "C67_mode0_partial. False for the device's own keys: C67_false_own."
  },
  {
   "property": "C68",
   "status": "partial",
   "theorems": [
    "Verif.Lite.C68_challenge",
    "Verif.Lite.C68_closes_partial"
   ],
   "note": "C68_closes_partial, for a cipher that gives back what it encrypted (the one in the code does not, C54_false_aes). C68_challenge: a challenge sent in parts covers the message kept in the device and all parts."
  },
  {
   "property": "C69",
   "status": "partial",
   "theorems": [
    "Verif.KeysFile.C69_load_partial",
    "Verif.KeysFile.C69_false_comma",
    "Verif.KeysFile.C69_false_cut",
    "Verif.KeysFile.C69_false_twice"
   ],
   "note": "C69_load_partial: every wallet whose escaped key data has no quote followed by a comma comes back. False otherwise: the lazy regular expression cuts the key data there (C69_false_comma, C69_false_cut); and generating the file removes the keys from the wallet object (C69_false_twice)."
  },
  {
   "property": "C70",
   "status": "proved",
   "theorems": [
    "Verif.Lite.C70_subaddress",
    "Verif.Lite.C70_subaddress_secret",
    "Verif.Lite.C70_key_image",
    "Verif.Lite.C70_subaddress_of_output",
    "Verif.Lite.C70_derive"
   ],
   "note": "C70_derive, for a cipher that gives back what it encrypted; sub-addresses, their secrets, key images and the search for the spend key for every device state (C70_subaddress, C70_subaddress_secret, C70_key_image, C70_subaddress_of_output)."
  },
  {
   "property": "C71",
   "status": "partial",
   "theorems": [
    "Verif.Prng.C71_next",
    "Verif.Prng.C71_history_partial",
    "Verif.Prng.C71_false_pieces",
    "Verif.Prng.C71_lost",
    "Verif.Prng.C71_scalars"
   ],
   "note": "False in general: a read that is not a multiple of 32 bytes drops the rest of its last block, so two reads of 16 bytes are not one of 32 (C71_false_pieces, C71_lost says which bytes are lost). Proved for every history of whole-block reads, skips and resets (C71_history_partial), for every single read (C71_next), and the scalars drawn by the range prover are the 32-byte pieces of the stream (C71_scalars). Digest length 32 is a hypothesis (true of Keccak, C62)."
  },
  {
   "property": "C72",
   "status": "proved",
   "theorems": [
    "Verif.Agent.C72_honest_signing_completes",
    "Verif.Agent.C72_only_bulletproofs",
    "Verif.Agent.C72_version_zero_two_outputs",
    "Verif.Agent.C72_self_transfer"
   ],
   "note": "Conditions of an honest request are in Spec/Agent.lean (Honest, Lawful). They are needed: without bulletproofs (C72_only_bulletproofs), for client version 0 with more than two outputs on hard fork 10 (C72_version_zero_two_outputs) and when nobody but the change address is paid and the payment id is not 32 bytes (C72_self_transfer) no transaction is ever obtained. Client version 0 is otherwise not covered. Ciphers, encodings, ring signature and range proof are parameters that work as intended; C42 to C44, C48, C49 are about them."
  },
  {
   "property": "C73",
   "status": "proved",
   "theorems": [
    "Verif.Agent.C73_recipients_find_outputs",
    "Verif.Agent.C73_false_if_change_is_not_own",
    "Verif.Agent.C73_short_payment_id",
    "Verif.Agent.C73_long_payment_id"
   ],
   "note": "The owner of the declared change address must be the wallet (v = viewPriv). The device does not check that address for a change of amount zero with two outputs; a payee declared as such change does not find their output (C73_false_if_change_is_not_own)."
  },
  {
   "property": "C74",
   "status": "partial",
   "theorems": [
    "Verif.Agent.C74_hashes_checked",
    "Verif.Agent.C74_masks_cut",
    "Verif.Agent.C74_result_is_right_partial",
    "Verif.Agent.C74_recipients_find_outputs_partial",
    "Verif.Agent.C74_foreign_source_refused",
    "Verif.Agent.C74_foreign_change_refused",
    "Verif.Agent.C74_false_version_zero"
   ],
   "note": "Proved for clients of version 1 and later, hard fork 9 and later, amounts of 64 bits and at most 2^42 entries, assuming that encodings and ciphers can be undone. C74_false_version_zero: a client of version 0 on hard fork 10 drops the corrected last pseudo output and ends with an unbalanced transaction."
  },
  {
   "property": "C75",
   "status": "partial",
   "theorems": [
    "Verif.Real.C75_honest_is_accepted",
    "Verif.Real.C75_obtained_is_accepted_partial",
    "Verif.Real.C75_false_if_a_source_is_repeated"
   ],
   "note": "Proved with the modelled curve, keys, ring signatures, range proofs and wire formats in place of the signer's parameters; what stays open (hash, message authentication code, cipher, protobuf, random numbers) is in Model/Real.lean Outside, with the assumptions Outside.Ok. Simplification: points that the device reads itself (own output, its commitment, addresses, transaction keys) outside the prime-order subgroup are refused in the model, the code accepts them; ring members are arbitrary. The sources must be different outputs: C75_false_if_a_source_is_repeated, neither host nor device notices a repeated source."
  },
  {
   "property": "C76",
   "status": "proved",
   "theorems": [
    "Verif.Real.C76_received_is_spendable"
   ],
   "note": "Same parts as C75. The hypothesis about the declared change address is that of C73 (C73_false_if_change_is_not_own)."
  },
  {
   "property": "C77",
   "status": "partial",
   "theorems": [
    "Verif.KiSync.C77_imported_images",
    "Verif.KiSync.C77_found_when_spent",
    "Verif.KiSync.C77_received_are_imported_partial"
   ],
   "note": "Key image import with the modelled cryptography on both sides. Whatever is imported is right (C77_imported_images) and found in every transaction that spends the output (C77_found_when_spent). Completeness is partial: multiples of ten fail (C16), and a zero response of a signature makes the device refuse."
  },
  {
   "property": "C78",
   "status": "partial",
   "theorems": [
    "Verif.Off.C78_same_proof",
    "Verif.Off.C78_completes",
    "Verif.Off.C78_blinding_irrelevant",
    "Verif.Off.C78_verifies",
    "Verif.Off.C78_produces",
    "Verif.Off.C78_false_half_chunks"
   ],
   "note": "Whole dialogue of host and device against the prover in memory (C78_same_proof, C78_completes, C78_produces), for the parameters in Spec/Offload.lean: powers of two, chunks that fit. C78_false_half_chunks: with the dot products on the device, one amount and chunks of 32 the dialogue cannot end."
  },
  {
   "property": "C79",
   "status": "proved",
   "theorems": [
    "Verif.Hd.C79_derivation",
    "Verif.Hd.C79_serialized",
    "Verif.Hd.C79_child"
   ],
   "note": "Against BIP32 over Mathlib's group of points of secp256k1 (Spec/Hd.lean). The ecdsa package is modelled by Model/Secp.lean and proved to be the group law (Lemmas/Secp.lean, with the order of the generator); HMAC-SHA512, hash160 and the double SHA256 are parameters, only their output lengths are assumed. The cache of get_child is the subject of C31 (paths use positional arguments, for which it is harmless)."
  },
  {
   "property": "C80",
   "status": "partial",
   "theorems": [
    "Verif.Hd.C80_public_path_partial",
    "Verif.Hd.C80_public_keys_partial",
    "Verif.Hd.C80_false",
    "Verif.Hd.C80_false_of",
    "Verif.Hd.C80_private_parent_partial"
   ],
   "note": "The public forms of M and .pub paths are right (C80_public_path_partial, C80_public_keys_partial, C80_private_parent_partial), but C80_false: a wallet without private key raises for every child."
  },
  {
   "property": "C81",
   "status": "partial",
   "theorems": [
    "Verif.Hd.C81_public_key",
    "Verif.Hd.C81_public_key_read",
    "Verif.Hd.C81_public_key_equal",
    "Verif.Hd.C81_equal_is_same",
    "Verif.Hd.C81_versions",
    "Verif.Hd.C81_roundtrip",
    "Verif.Hd.C81_canonical",
    "Verif.Hd.C81_false_depth",
    "Verif.Hd.C81_false_equal",
    "Verif.Hd.C81_equal_partial",
    "Verif.Hd.C81_false_truncated"
   ],
   "note": "C81_roundtrip and C81_canonical for all three forms up to depth 255; false: C81_false_depth (256 to 4095 steps), C81_false_equal (derived wallets of other networks differ from their copies under ==), C81_false_truncated (raw bytes of another length are accepted). C81_public_key, C81_public_key_read and C81_public_key_equal: public keys on their own are read from the encodings of curve points and from nothing else, and compare as points."
  },
  {
   "property": "C82",
   "status": "partial",
   "theorems": [
    "Verif.Hd.C82_key",
    "Verif.Hd.C82_false_compressed",
    "Verif.Hd.C82_wallet_partial",
    "Verif.Hd.C82_false_network",
    "Verif.Hd.C82_false_ed25519",
    "Verif.Hd.C82_false_marker"
   ],
   "note": "C82_key and C82_wallet_partial say exactly which networks accept the text; false: C82_false_compressed, C82_false_network, C82_false_ed25519, C82_false_marker."
  },
  {
   "property": "C83",
   "status": "partial",
   "theorems": [
    "Verif.Hd.C83_recover_partial",
    "Verif.Hd.C83_false",
    "Verif.Hd.C83_refused"
   ],
   "note": "C83_recover_partial for the Bitcoin main network (and a nonzero offset), C83_false for every other network, C83_refused."
  },
  {
   "property": "C84",
   "status": "partial",
   "theorems": [
    "Verif.Seed.C84_seed_standard",
    "Verif.Seed.C84_default_path",
    "Verif.Seed.C84_slip_standard_partial",
    "Verif.Seed.C84_slip_false",
    "Verif.Seed.C84_words_restore",
    "Verif.Seed.C84_false_text",
    "Verif.Seed.C84_mnemonics",
    "Verif.Seed.C84_indices_passphrase"
   ],
   "note": "C84_seed_standard and C84_default_path for BIP44, for every seed and path; C84_words_restore and C84_mnemonics for every spelling. SLIP-0010: C84_slip_standard_partial under the conditions the code imposes, and C84_slip_false says it refuses every other seed. C84_false_text: one text instead of a list always raises. The Unicode normalization of BIP39 is missing in the code; texts are modelled for ASCII."
  },
  {
   "property": "C85",
   "status": "partial",
   "theorems": [
    "Verif.Seed.C85_restore_partial",
    "Verif.Seed.C85_false_words",
    "Verif.Seed.C85_false"
   ],
   "note": "C85_restore_partial: hex seed, Monero words and account file restore the wallet. C85_false: the printed BIP39 words do not; C85_false_words says which seeds they give instead (the seed with its checksum byte, or PBKDF2 of the words)."
  },
  {
   "property": "C86",
   "status": "partial",
   "theorems": [
    "Verif.Builder.C86_input",
    "Verif.Builder.C86_balance",
    "Verif.Builder.C86_signed_partial",
    "Verif.Builder.C86_false_subaddress"
   ],
   "note": "C86_input and C86_balance hold for every input and every state of the builder. C86_signed_partial: the whole way from gen_input to the network's checks, for inputs at the sub-address (account, account), which is the main address for account 0. C86_false_subaddress: with an input at (0, minor), minor not 0, the wallet never signs. Payment ids set in the builder (written by the serialization library) are not modelled; shuffle_outputs always raises and is not modelled."
  },
  {
   "property": "C87",
   "status": "partial",
   "theorems": [
    "Verif.TxKeys.C87_keys_kept_partial",
    "Verif.TxKeys.C87_keys_handed_out"
   ],
   "note": "C87_keys_kept_partial holds for every run of the host's signing loop that returns a transaction, within the limits of C74 (Fits), and for salts that are not empty (random_bytes(32)). A change output next to a single sub-address is not covered: its key is made with the view key and the published key only. C87_keys_handed_out uses a specification of the device for the later request, which the repository does not contain."
  },
  {
   "property": "C88",
   "status": "partial",
   "theorems": [
    "Verif.LiveRefresh.C88_returned_is_proven",
    "Verif.LiveRefresh.C88_wrong_image_one_challenge",
    "Verif.LiveRefresh.C88_exported_is_returned",
    "Verif.LiveRefresh.C88_false_torsion"
   ],
   "note": "C88_returned_is_proven and C88_exported_is_returned are complete for the host. C88_wrong_image_one_challenge is the soundness that does not depend on the hash; the rest is an assumption about Keccak. C88_false_torsion: points outside the prime order subgroup are accepted. The device side is not in the repository."
  },
  {
   "property": "C89",
   "status": "partial",
   "theorems": [
    "Verif.Amount.C89_false",
    "Verif.Amount.C89_false_more",
    "Verif.Amount.C89_error_partial",
    "Verif.Amount.C89_close_partial",
    "Verif.Amount.C89_exact_partial",
    "Verif.Amount.C89_whole_partial",
    "Verif.Amount.C89_false_shown",
    "Verif.Amount.C89_shown_partial"
   ],
   "note": "False as stated: C89_false, C89_false_more, C89_false_shown. Proved instead: the error of the amount sent (C89_error_partial, C89_close_partial), amounts sent exactly (C89_exact_partial, C89_whole_partial), and the error of the amount shown (C89_shown_partial). Python's floats are modelled as rational numbers with IEEE 754 rounding."
  },
  {
   "property": "C90",
   "status": "partial",
   "theorems": [
    "Verif.Cmd.C90_transfer",
    "Verif.Cmd.C90_requested_is_typed",
    "Verif.Cmd.C90_transfer_confirmed",
    "Verif.Cmd.C90_sweep_confirmed",
    "Verif.Cmd.C90_dust_confirmed",
    "Verif.Cmd.C90_transfer_done",
    "Verif.Cmd.C90_sweep_all",
    "Verif.Cmd.C90_sweep_below",
    "Verif.Cmd.C90_false_single",
    "Verif.Cmd.C90_false_single_nothing",
    "Verif.Cmd.C90_false_dropped",
    "Verif.Cmd.C90_false_dust"
   ],
   "note": "C90_transfer, C90_transfer_done, C90_requested_is_typed, C90_transfer_confirmed, C90_sweep_all, C90_sweep_below, C90_sweep_confirmed and C90_dust_confirmed hold in full. False parts: C90_false_single, C90_false_single_nothing, C90_false_dropped, C90_false_dust. Amounts are those of C89. Wallet, user and signer are arbitrary functions; numbers are ASCII."
  },
  {
   "property": "C91",
   "status": "partial",
   "theorems": [
    "Verif.SignedSet.C91_signed_set",
    "Verif.SignedSet.C91_signed_set_no_transfers",
    "Verif.SignedSet.C91_honest_set_is_signed",
    "Verif.SignedSet.C91_record_order",
    "Verif.SignedSet.C91_false_record"
   ],
   "note": "C91_signed_set, C91_signed_set_no_transfers, C91_honest_set_is_signed and C91_record_order hold in full (with the assumptions of C74 on the external functions). False part: C91_false_record."
  },
  {
   "property": "C92",
   "status": "partial",
   "theorems": [
    "Verif.Acct.C92_opens",
    "Verif.Acct.C92_address_partial",
    "Verif.Acct.C92_false_view_key",
    "Verif.Acct.C92_false_network",
    "Verif.Acct.C92_saved_opens",
    "Verif.Acct.C92_password",
    "Verif.Acct.C92_file",
    "Verif.Acct.C92_device"
   ],
   "note": "C92_opens, C92_saved_opens, C92_password, C92_file and C92_device hold in full; C92_address_partial says what is opened in every case. False parts: C92_false_view_key, C92_false_network. JSON and the cipher are external; the account number is 0."
  },
  {
   "property": "C93",
   "status": "partial",
   "theorems": [
    "Verif.Prompt.C93_transaction_shown",
    "Verif.Prompt.C93_key_images_shown",
    "Verif.Prompt.C93_view_key_chosen",
    "Verif.Prompt.C93_served",
    "Verif.Prompt.C93_served_key_images",
    "Verif.Prompt.C93_served_view_key",
    "Verif.Prompt.C93_false_threads",
    "Verif.Prompt.C93_false_lost",
    "Verif.Prompt.C93_view_key_busy"
   ],
   "note": "C93_transaction_shown, C93_key_images_shown, C93_view_key_chosen hold for every interleaving of the default server (one request at a time); C93_served, C93_served_key_images, C93_served_view_key: a lone request gets the answer typed. False parts: C93_false_threads (server with threads), C93_false_lost. Steps are single reads and writes of the shared fields; threads of the interpreter interleave between them."
  },
  {
   "property": "C94",
   "status": "partial",
   "theorems": [
    "Verif.Start.C94_keeps",
    "Verif.Start.C94_keys_file",
    "Verif.Start.C94_watches_partial",
    "Verif.Start.C94_device_fails",
    "Verif.Start.C94_restart_partial",
    "Verif.Start.C94_false_password",
    "Verif.Start.C94_height_confirmed",
    "Verif.Start.C94_height_typed",
    "Verif.Start.C94_height_date",
    "Verif.Start.C94_height_number_partial",
    "Verif.Start.C94_false_height",
    "Verif.Start.C94_false_negative"
   ],
   "note": "C94_keeps, C94_keys_file, C94_device_fails, C94_height_confirmed, C94_height_typed, C94_height_date hold in full. C94_watches_partial and C94_restart_partial need that the serialised keys do not contain a quote followed by a comma (C69_false_comma). C94_height_number_partial: the height is a number unless a failed date was tried again. False parts: C94_false_height, C94_false_negative, C94_false_password."
  },
  {
   "property": "C95",
   "status": "partial",
   "theorems": [
    "Verif.WalletProc.C95_command_partial",
    "Verif.WalletProc.C95_false_directory",
    "Verif.WalletProc.C95_passwords_partial",
    "Verif.WalletProc.C95_false_password",
    "Verif.WalletProc.C95_output_partial",
    "Verif.WalletProc.C95_standard_output_partial",
    "Verif.WalletProc.C95_false_output",
    "Verif.WalletProc.C95_false_error_output",
    "Verif.WalletProc.C95_false_last_line"
   ],
   "note": "C95_command_partial: for all addresses and file names, with a program directory of ordinary characters (C95_false_directory: a space in it runs another program). C95_passwords_partial: for passwords without a line end (C95_false_password). C95_output_partial and C95_standard_output_partial: for all interleavings, when no line comes in more than two reads and there is no carriage return. False parts: C95_false_output, C95_false_error_output, C95_false_last_line."
  },
  {
   "property": "C96",
   "status": "partial",
   "theorems": [
    "Verif.Scan.C96_sound",
    "Verif.Scan.C96_same_key",
    "Verif.Scan.C96_false_clear",
    "Verif.Scan.C96_false_twice",
    "Verif.Scan.C96_complete"
   ],
   "note": "C96_sound: all transactions, the table being one of the wallet's addresses (C38_table_valid); C96_complete: all transactions the agent signs, if an output that fits the wallet with the key of the transaction and with its own key has the same shared scalar with both. C96_same_key: outputs with the same key have one key image. False parts: C96_false_clear (amounts in the clear), C96_false_twice (no key image is compared)."
  },
  {
   "property": "C97",
   "status": "partial",
   "theorems": [
    "Verif.EdDsa.C97_check",
    "Verif.EdDsa.C97_secret",
    "Verif.EdDsa.C97_public_key",
    "Verif.EdDsa.C97_signed_is_valid",
    "Verif.EdDsa.C97_signed_reduced",
    "Verif.EdDsa.C97_nonce",
    "Verif.EdDsa.C97_two_signatures",
    "Verif.EdDsa.C97_false_malleable",
    "Verif.EdDsa.C97_false_small_order",
    "Verif.EdDsa.C97_affine_key",
    "Verif.EdDsa.C97_false_affine_sign",
    "Verif.EdDsa.C97_affine_check",
    "Verif.EdDsa.C97_affine_accepts"
   ],
   "note": "All hashes of 64 bytes, as a parameter. C97_two_signatures gives eight times the key, the key itself if it is in the subgroup. False parts: C97_false_malleable, C97_false_small_order, C97_false_affine_sign."
  },
  {
   "property": "C98",
   "status": "partial",
   "theorems": [
    "Verif.EdBack.C98_affine_add",
    "Verif.EdBack.C98_affine_sub",
    "Verif.EdBack.C98_affine_times",
    "Verif.EdBack.C98_base",
    "Verif.EdBack.C98_ietf_add",
    "Verif.EdBack.C98_ietf_times",
    "Verif.EdBack.C98_xrecover",
    "Verif.EdBack.C98_sqroot",
    "Verif.EdBack.C98_encode",
    "Verif.EdBack.C98_compress",
    "Verif.EdBack.C98_decode",
    "Verif.EdBack.C98_reencode",
    "Verif.EdBack.C98_decompress_partial",
    "Verif.EdBack.C98_false_decompress"
   ],
   "note": "All inputs; C98_decompress_partial for all bytes but one string, C98_false_decompress for that string."
  },
  {
   "property": "C99",
   "status": "partial",
   "theorems": [
    "Verif.Sig.C99_schnorr",
    "Verif.Sig.C99_ring",
    "Verif.Sig.C99_mlsag",
    "Verif.Sig.C99_clsag",
    "Verif.Sig.C99_clsag_separate",
    "Verif.Sig.C99_linkable",
    "Verif.Sig.C99_range",
    "Verif.Sig.C99_false_torsion"
   ],
   "note": "Explicit extractors secretOf, firstOf, secondOf, openRange (every point of a cyclic group has some discrete logarithm, so bare existence would say nothing). The extraction step of the forking lemma, for all pairs of accepted signatures with the same first messages. That a forger can be rewound to produce such a pair is a probabilistic statement about the hash and is not modelled. Bulletproofs: C100. False part: C99_false_torsion."
  },
  {
   "property": "C100",
   "status": "partial",
   "theorems": [
    "Verif.Bp.C100_sound",
    "Verif.Bp.C100_group",
    "Verif.Bp.C100_accepted",
    "Verif.Bp.C100_conserved",
    "Verif.Bp.C100_iff"
   ],
   "note": "Algebraic prover: points are given with their combinations of generators. That a prover can be rewound to produce the tree, and that relations between the generators are hard to find, are probabilistic and computational statements and are not modelled. The link from acceptance by the program to the equations at a leaf is C100_accepted; since generators beyond the table are hashed as well, the hashes of the leaves have to agree on them, which is left to the reader in C100_group, where the generators are fixed."
  },
  {
   "property": "C101",
   "status": "partial",
   "theorems": [
    "Verif.Msgs.C101_table",
    "Verif.Msgs.C101_monero",
    "Verif.Msgs.C101_unsendable",
    "Verif.Msgs.C101_arrives",
    "Verif.Msgs.C101_state",
    "Verif.Msgs.C101_session",
    "Verif.Msgs.C101_garbage",
    "Verif.Msgs.C101_false_failure",
    "Verif.Msgs.C101_false_call",
    "Verif.Msgs.C101_watch"
   ],
   "note": "Proved for the classes whose descriptions are usable. 19 numbered classes, Failure among them, use p.EnumType, which the codec does not have: a refusal of the device never reaches the agent (C101_false_failure); the agent's general call has no counterpart (C101_false_call)."
  },
  {
   "property": "C102",
   "status": "partial",
   "theorems": [
    "Verif.Sig.C102_row_accept_iff",
    "Verif.Sig.C102_row_complete",
    "Verif.Sig.C102_row_sound",
    "Verif.Sig.C102_accept_iff",
    "Verif.Sig.C102_complete",
    "Verif.Sig.C102_false_forged"
   ],
   "note": "Single rows: acceptance characterised, complete and sound by extraction. Aggregates: acceptance characterised and complete. The last part is false: C102_false_forged gives a program that signs any rows knowing one secret of one row."
  },
  {
   "property": "C103",
   "status": "proved",
   "theorems": [
    "Verif.Euclid.C103_gcd",
    "Verif.Euclid.C103_modinv",
    "Verif.Euclid.C103_modinv_neg",
    "Verif.Euclid.C103_modinv_zero",
    "Verif.Euclid.C103_mul_inverse",
    "Verif.Euclid.C103_mul_inverse_small",
    "Verif.Euclid.C103_agree",
    "Verif.Ed.C103_xy_round",
    "Verif.Ed.C103_xy_point",
    "Verif.Ed.C103_ext_point",
    "Verif.Ed.C103_completed"
   ],
   "note": "For mul_inverse_egcd moduli from 2 on; below 2 it raises (C103_mul_inverse_small)."
  },
  {
   "property": "C104",
   "status": "partial",
   "theorems": [
    "Verif.MsgConv.C104_to_device",
    "Verif.MsgConv.C104_from_device",
    "Verif.MsgConv.C104_from_device_flat",
    "Verif.MsgConv.C104_back",
    "Verif.MsgConv.C104_call",
    "Verif.MsgConv.C104_closed",
    "Verif.MsgConv.C104_unknown",
    "Verif.MsgConv.C104_false_nested",
    "Verif.MsgConv.C104_false_number"
   ],
   "note": "All but the last sentence, for messages whose classes have the same fields in both packages. The last sentence is false: C104_false_nested; it holds for answers without messages inside (C104_from_device_flat)."
  },
  {
   "property": "C105",
   "status": "partial",
   "theorems": [
    "Verif.MultiExp.C105_eval",
    "Verif.MultiExp.C105_lists",
    "Verif.MultiExp.C105_function",
    "Verif.MultiExp.C105_added",
    "Verif.MultiExp.C105_sequential",
    "Verif.MultiExp.C105_false_size",
    "Verif.MultiExp.C105_merged_partial",
    "Verif.MultiExp.C105_false_merged"
   ],
   "note": "False for a holder made with a size, which is empty (C105_false_size), and for the first pair of every part of a merged holder (C105_false_merged); the other pairs are right (C105_merged_partial). Everything else proved. Evaluation of merged holders is not modelled."
  },
  {
   "property": "C106",
   "status": "partial",
   "theorems": [
    "Verif.ExtraEdit.C106_add_key",
    "Verif.ExtraEdit.C106_add_points",
    "Verif.ExtraEdit.C106_add_encoded",
    "Verif.ExtraEdit.C106_add_nonce_partial",
    "Verif.ExtraEdit.C106_false_nonce",
    "Verif.ExtraEdit.C106_nonce_limit",
    "Verif.ExtraEdit.C106_remove",
    "Verif.ExtraEdit.C106_remove_bad",
    "Verif.ExtraEdit.C106_find",
    "Verif.ExtraEdit.C106_payment_id",
    "Verif.ExtraEdit.C106_announced"
   ],
   "note": "For nonces of at most 127 bytes (C106_add_nonce_partial); false for longer ones, whose length is written in one byte and read as a number of several (C106_false_nonce). Everything else proved, for fields with tags 1, 2 and 4."
  },
  {
   "property": "C107",
   "status": "partial",
   "theorems": [
    "Verif.Token.C107_sign_undisturbed",
    "Verif.Token.C107_ki_undisturbed",
    "Verif.Token.C107_sign_order",
    "Verif.Token.C107_ki_released",
    "Verif.Token.C107_past_irrelevant",
    "Verif.Token.C107_others_change_nothing",
    "Verif.Token.C107_wrong_network",
    "Verif.Token.C107_false_view_key"
   ],
   "note": "All but the last sentence. The last sentence is false: get_view_key encodes the secret view key as a point and raises (C107_false_view_key)."
  },
  {
   "property": "C108",
   "status": "proved",
   "theorems": [
    "Verif.Sig.C108_commitment",
    "Verif.Sig.C108_range",
    "Verif.Sig.C108_range_hides",
    "Verif.Sig.C108_mlsag",
    "Verif.Sig.C108_anonymous"
   ],
   "note": ""
  },
  {
   "property": "C109",
   "status": "partial",
   "theorems": [
    "Verif.Signer.C109_confirmed_payment_partial",
    "Verif.Signer.C109_false_lost"
   ],
   "note": "Holds if a declared zero change does not name the address of a recipient (C109_false_lost: otherwise the recipient cannot find the output and the amount is lost) and equal addresses carry equal sub-address flags. Tags are unforgeable (Binding, issued tags) and digests have 32 bytes; the inputs of the prefix are those presented (C05 says which)."
  },
  {
   "property": "C110",
   "status": "proved",
   "theorems": [
    "Verif.Sig.C110_clsag",
    "Verif.Sig.C110_clsag_anonymous",
    "Verif.Sig.C110_ring"
   ],
   "note": ""
  },
  {
   "property": "C111",
   "status": "proved",
   "theorems": [
    "Verif.Bp.C111_hidden",
    "Verif.Bp.C111_tests"
   ],
   "note": ""
  },
  {
   "property": "C112",
   "status": "partial",
   "theorems": [
    "Verif.TestGen.C112_totals",
    "Verif.TestGen.C112_owned",
    "Verif.TestGen.C112_split",
    "Verif.TestGen.C112_false_inputs",
    "Verif.TestGen.C112_false_no_change",
    "Verif.TestGen.C112_change_partial",
    "Verif.TestGen.C112_false_minor",
    "Verif.TestGen.C112_false_index",
    "Verif.TestGen.C112_false_subs",
    "Verif.TestGen.C112_false_fails",
    "Verif.TestGen.C112_false_amount"
   ],
   "note": "The change is kept only under the position conditions of C112_change_partial; the code loses it otherwise (C112_false_index, C112_false_subs, C112_false_amount, C112_false_fails), cannot split inputs while changing wallets (C112_false_inputs), fails without change (C112_false_no_change), and ignores minor indices in account 0 (C112_false_minor)."
  },
  {
   "property": "C113",
   "status": "proved",
   "theorems": [
    "Verif.Key.C113_one_transaction",
    "Verif.Key.C113_amount_keys",
    "Verif.Key.C113_transactions",
    "Verif.Key.C113_change",
    "Verif.Key.C113_false_small"
   ],
   "note": "The collision is given explicitly: the two strings that the code hashed. C113_false_small shows that the condition on the view key is needed."
  },
  {
   "property": "C114",
   "status": "proved",
   "theorems": [
    "Verif.Key.C114_distinct",
    "Verif.Key.C114_table"
   ],
   "note": "The coincidence is given explicitly in terms of the hashed strings."
  },
  {
   "property": "C115",
   "status": "proved",
   "theorems": [
    "Verif.Signer.C115_pinned",
    "Verif.Signer.C115_secret",
    "Verif.Signer.C115_clash",
    "Verif.Signer.C115_broken",
    "Verif.Signer.C115_payment",
    "Verif.Signer.C115_ideal",
    "Verif.Signer.C115_masks",
    "Verif.Signer.C115_ideal_seal"
   ],
   "note": "Replaces the idealisation `Binding` of C05, C06 and C109 and their assumption that presented tags were issued. Nothing is assumed of the primitives; the length of the key hash (32 bytes) is needed only to turn a clash of tags into a collision (`C115_clash`)."
  },
  {
   "property": "C116",
   "status": "partial",
   "theorems": [
    "Verif.Rct.C116_range_bp",
    "Verif.Rct.C116_range_bp_made",
    "Verif.Rct.C116_owner_partial",
    "Verif.Rct.C116_shared_v2",
    "Verif.Rct.C116_warning",
    "Verif.Rct.C116_false_amount",
    "Verif.Rct.C116_false_v2"
   ],
   "note": "proved for the Bulletproof helper, for the first amount encoding with the receiver's key and for the compact one with a given derivation; false of the compact encoding with the receiver's key (the call raises for every pair of keys, because the only curve point with four coordinates below 256 is the neutral one) and of mismatching commitments (the wrong amount is returned, only a warning is logged)"
  },
  {
   "property": "C117",
   "status": "partial",
   "theorems": [
    "Verif.HostAux.C117_count_partial",
    "Verif.HostAux.C117_announced",
    "Verif.HostAux.C117_once_partial",
    "Verif.HostAux.C117_none",
    "Verif.HostAux.C117_false_repeated",
    "Verif.HostAux.C117_false_standard",
    "Verif.HostAux.C117_strip"
   ],
   "note": "every output is announced once for each integrated destination with its keys and amount, so the set is exact, and the list has no repetition if no two integrated destinations agree in keys and amount; false for repeated payments (entries are repeated) and for a payment of the same amount to the standard address of the same wallet (listed as integrated)"
  },
  {
   "property": "C118",
   "status": "partial",
   "theorems": [
    "Verif.Pb.C118_reads",
    "Verif.Pb.C118_roundtrip",
    "Verif.Pb.C118_unambiguous",
    "Verif.Pb.C118_typed_partial",
    "Verif.Pb.C118_false_negative",
    "Verif.Pb.C118_false_flag",
    "Verif.Pb.C118_false_characters"
   ],
   "note": "dictionaries that spell a message are read as it, uniquely, and the dictionary of every message is such a one; whatever is accepted has the field types; false of negative numbers in unsigned fields (accepted, writing fails), of flags given as text (always true) and of a text given for a list of texts (taken apart into characters)"
  },
  {
   "property": "C119",
   "status": "proved",
   "theorems": [
    "Verif.Creds.C119_generated",
    "Verif.Creds.C119_same_address",
    "Verif.Creds.C119_listing",
    "Verif.Creds.C119_listing_distinct",
    "Verif.Creds.C119_report"
   ],
   "note": "With both network flags the generator uses the test net."
  },
  {
   "property": "C120",
   "status": "partial",
   "theorems": [
    "Verif.Sig.C120_forms",
    "Verif.Sig.C120_too_large",
    "Verif.Sig.C120_backend_partial",
    "Verif.Sig.C120_false_decode"
   ],
   "note": "Proved for the Python provers with all options, and for the C implementation in encoded form or as a string; its decoded form always raises (C120_false_decode)."
  },
  {
   "property": "C121",
   "status": "partial",
   "theorems": [
    "Verif.Symbols.C121_resolved_partial",
    "Verif.Symbols.C121_marked",
    "Verif.Symbols.C121_false_last",
    "Verif.Symbols.C121_false_first"
   ],
   "note": "Holds between the first and the last symbol (C121_resolved_partial, C121_marked); an address behind the last symbol gets the last but one, one before the first gets the first."
  },
  {
   "property": "C122",
   "status": "proved",
   "theorems": [
    "Verif.Host.C122_file",
    "Verif.Host.C122_requests",
    "Verif.Host.C122_ends",
    "Verif.Host.C122_limits"
   ],
   "note": "The file is emptied before the first request, so a failing first call loses what it held, and a device that answers with nothing is asked forever (C122_limits)."
  },
  {
   "property": "C123",
   "status": "partial",
   "theorems": [
    "Verif.Host.C123_request_partial",
    "Verif.Host.C123_refused",
    "Verif.Host.C123_false_text"
   ],
   "note": "False for texts without a colon: they are accepted and then every request raises (C123_false_text). Proved for pairs, texts with a colon, lists of another length and other objects."
  },
  {
   "property": "C124",
   "status": "partial",
   "theorems": [
    "Verif.Connect.C124_network",
    "Verif.Connect.C124_switch_partial",
    "Verif.Connect.C124_failed",
    "Verif.Connect.C124_reconnect",
    "Verif.Connect.C124_false_other"
   ],
   "note": "False for lines that are not empty, not udp and have no colon: they all open bridge:web01 without complaint (C124_false_other). Everything else is proved."
  },
  {
   "property": "C125",
   "status": "partial",
   "theorems": [
    "Verif.Hd.C125_user_partial",
    "Verif.Hd.C125_refused",
    "Verif.Hd.C125_distinct_users",
    "Verif.Hd.C125_false_public",
    "Verif.Hd.C125_false_entropy"
   ],
   "note": "Proved for wallets with a private key. False for public wallets, which raise for every user (C125_false_public), and for random wallets with entropy of the user, which always raise (C125_false_entropy: a text is added to bytes)."
  },
  {
   "property": "C126",
   "status": "partial",
   "theorems": [
    "Verif.Bp.C126_in_place",
    "Verif.Bp.C126_fresh",
    "Verif.Bp.C126_two",
    "Verif.Bp.C126_second",
    "Verif.Bp.C126_prover",
    "Verif.Bp.C126_linear",
    "Verif.Bp.C126_linear_fresh",
    "Verif.Bp.C126_false_offset",
    "Verif.Bp.C126_powers",
    "Verif.Bp.C126_false_raw"
   ],
   "note": "Proved for every length in place with offset 0, and for a separate destination with any offset. False in place with an offset (C126_false_offset: writes run into elements still to be read) and for scalars given in decoded form to the weighted sum (C126_false_raw: all points are multiplied by the stale temporary)."
  },
  {
   "property": "C127",
   "status": "partial",
   "theorems": [
    "Verif.Bp.C127_dup",
    "Verif.Bp.C127_op",
    "Verif.Bp.C127_scaled_partial",
    "Verif.Bp.C127_false_scaled",
    "Verif.Bp.C127_total",
    "Verif.Bp.C127_ztwo",
    "Verif.Bp.C127_ztwo_static_partial",
    "Verif.Bp.C127_false_ztwo",
    "Verif.Bp.C127_generators_partial",
    "Verif.Bp.C127_false_generators"
   ],
   "note": "Constant vectors, sums, differences, totals and the on-demand vector are proved for every size. Multiples, the table of z^(2+j) 2^c and the tables of generators are proved for vectors that are not chunked. False for chunked vectors, among them all with 64 elements (C127_false_scaled, C127_false_ztwo, C127_false_generators): the functions write to the element returned by indexing, which is a copy, and the result stays zero."
  },
  {
   "property": "C128",
   "status": "partial",
   "theorems": [
    "Verif.MsgObj.C128_values_partial",
    "Verif.MsgObj.C128_copy",
    "Verif.MsgObj.C128_false_copy"
   ],
   "note": "Proved for every program without CopyFrom, as a refinement of a heap with references to messages as values. Right after CopyFrom the messages are equal (C128_copy), but they share their lists: what is appended to the copy appears in the original (C128_false_copy)."
  },
  {
   "property": "C129",
   "status": "partial",
   "theorems": [
    "Verif.Bp.C129_get",
    "Verif.Bp.C129_end",
    "Verif.Bp.C129_write",
    "Verif.Bp.C129_history",
    "Verif.Bp.C129_false_before",
    "Verif.Bp.C129_false_wrapped",
    "Verif.Bp.C129_wrapped_partial",
    "Verif.Bp.C129_two_partial"
   ],
   "note": "Proved for all indices from minus the length up and for all histories of writes. False: an index below minus the length reads outside of the slice (C129_false_before), writes through a wrapped vector stored in chunks are lost (C129_false_wrapped), and the table of powers of two raises for even indices from 64 on and all from 126 on (C129_two_partial states exactly where it is right). The last two are not reached with 64-bit amounts."
  },
  {
   "property": "C130",
   "status": "partial",
   "theorems": [
    "Verif.Real.C130_each_partial",
    "Verif.Real.C130_job_partial",
    "Verif.Real.C130_honest",
    "Verif.Real.C130_together",
    "Verif.Real.C130_false_shared_source",
    "Verif.Real.C130_false_refused"
   ],
   "note": "Proved for every set when the call returns, for client version 1 and hard fork 9 on; honest sets are signed completely. False: two requests with the same source are both signed and share a key image (C130_false_shared_source), and a refusal of a later transaction discards those already confirmed and signed (C130_false_refused). The serializer of whole transactions is a parameter. The example beside C130_together is a set of one request."
  },
  {
   "property": "C131",
   "status": "partial",
   "theorems": [
    "Verif.Pb.C131_stream",
    "Verif.Pb.C131_count",
    "Verif.Pb.C131_read_back",
    "Verif.Pb.C131_false_size"
   ],
   "note": "The writer and the counter are proved right for all messages. The last sentence is false: ByteSize never awaits the writing and is 0 for every message (C131_false_size)."
  },
  {
   "property": "C132",
   "status": "partial",
   "theorems": [
    "Verif.Regs.C132_program_partial",
    "Verif.Regs.C132_equal",
    "Verif.Regs.C132_false_invert",
    "Verif.Regs.C132_false_raw"
   ],
   "note": "Proved for all programs of the arithmetic functions, decoding of scalars, and decodeint_into_noreduce on numbers below the order. False for two functions: invert_ext, which has no caller in the repository, changes its operand (C132_false_invert), and decodeint_into_noreduce on larger numbers leaves scalars for which equality is not equality of values (C132_false_raw). Decoding of points is not among the calls; decoded points may be in the initial memory."
  }
 ]
}