{"id": "C01", "title": "Signing messages are only accepted in protocol order", "statement": "Whatever sequence of transaction-signing messages a host sends, the device produces a success answer only for messages that arrive in the prescribed order: init; then exactly the declared number of inputs; then one permutation and exactly the declared number of prefix inputs; then exactly the declared number of outputs with their range-proof batches; then one closing-outputs message; then one ring signature per declared input; then one final message. Every other message is answered with a failure.", "quantifier": "every finite sequence of host messages (including hostile ones) starting from an idle device", "why_tests_cant": "the set of message sequences is infinite; tests drive only the happy path and a few wrong orders", "anchors": ["monero_glue/protocol/tsx_sign_state.py:TState", "monero_glue/protocol/tsx_sign.py:TsxSigner.tsx_obj", "monero_glue/protocol/tsx_sign_builder.py:TransactionSigningBuilder", "monero_glue/hwtoken/token.py:TokenLite.tsx_sign"]}
{"id": "C02", "title": "A failed or finished session leaves nothing to resume", "statement": "After any signing message that ends in an exception, after the final message, and after the user refuses the transaction, every later signing message other than a new init is answered with a failure and no signature, until a new init succeeds.", "quantifier": "every history of host messages, every point at which a step fails (crash point)", "why_tests_cant": "the failing step may be any of the nine, at any index, with any history before and after; tests cannot enumerate the crash points", "anchors": ["monero_glue/hwtoken/token.py:TokenLite.tsx_sign", "monero_glue/hwtoken/token.py:TokenLite.tsx_exc_handler", "monero_glue/protocol/tsx_sign_state.py:TState.set_fail", "monero_glue/protocol/tsx_sign.py:TsxSigner.should_purge"]}
{"id": "C03", "title": "No signature without user confirmation in the same session", "statement": "The device never emits a ring signature for an input unless, in the same session, the user was shown the transaction data of that init message and accepted it, and no init happened in between.", "quantifier": "every sequence of host messages and every sequence of user decisions", "why_tests_cant": "a security property over all adversarial histories; tests exercise cooperative hosts only", "anchors": ["monero_glue/protocol/tsx_sign_builder.py:init_transaction", "monero_glue/protocol/tsx_sign_builder.py:sign_input", "monero_glue/hwtoken/token.py:TokenLite.tsx_sign"]}
{"id": "C04", "title": "Declared counts are the processed counts", "statement": "When the device starts answering signature requests, it has processed exactly the number of inputs and exactly the number of outputs that were declared at init, and in the whole session it emits at most one signature per declared input position.", "quantifier": "every sequence of host messages", "why_tests_cant": "counts and histories are unbounded", "anchors": ["monero_glue/protocol/tsx_sign_builder.py:set_input", "monero_glue/protocol/tsx_sign_builder.py:set_output", "monero_glue/protocol/tsx_sign_builder.py:all_out1_set", "monero_glue/protocol/tsx_sign_builder.py:sign_input"]}
{"id": "C05", "title": "Inputs used for prefix and signature are the registered ones", "statement": "Every input accepted in the prefix phase and in the signing phase carries the authentication tag that the device itself issued, in this session, for exactly that source entry, that prefix input and that registration position; so with an unforgeable tag the host cannot substitute an input.", "quantifier": "every sequence of host messages, every tag function", "why_tests_cant": "an adversary may substitute any data at any index at any time", "anchors": ["monero_glue/protocol/tsx_sign_builder.py:gen_hmac_vini", "monero_glue/protocol/tsx_sign_builder.py:input_vini", "monero_glue/protocol/tsx_sign_builder.py:sign_input"]}
{"id": "C06", "title": "Outputs that are signed are the outputs that were confirmed", "statement": "Every destination accepted in the output phase at position i carries the tag the device issued at init for the i-th confirmed destination; with an injective tag function the list of processed outputs equals, in order, the confirmed list (the single trailing message that only delivers an offloaded range proof excepted, which adds no output).", "quantifier": "every sequence of host messages and destination lists", "why_tests_cant": "all substitutions/reorderings/repetitions of outputs by a hostile host", "anchors": ["monero_glue/protocol/tsx_sign_builder.py:_set_out1", "monero_glue/protocol/tsx_sign_builder.py:set_output", "monero_glue/protocol/tsx_sign_builder.py:gen_hmac_tsxdest"]}
{"id": "C07", "title": "Value is conserved: fee equals inputs minus outputs", "statement": "If the device reaches the signing phase then the sum of all registered input amounts equals the sum of all processed output amounts plus the fee that was declared (and shown) at init; in particular inputs never fall short of outputs.", "quantifier": "every sequence of host messages, all amounts", "why_tests_cant": "sums over unbounded lists with adversarial amounts", "anchors": ["monero_glue/protocol/tsx_sign_builder.py:all_out1_set", "monero_glue/protocol/tsx_sign_builder.py:set_input", "monero_glue/protocol/tsx_sign_builder.py:set_output"]}
{"id": "C08", "title": "Commitment masks balance", "statement": "In a completed session in which every registered input was signed once, the pseudo-output masks of all inputs add up to the masks of all outputs, and the pseudo-output commitments equal the sum of output commitments plus fee*H, both when masks are random with a corrected last one and when output masks are deterministic and the last pseudo-output is re-balanced during signing.", "quantifier": "all numbers of inputs and outputs, all random masks, all amounts", "why_tests_cant": "algebraic identity over all randomness and sizes", "anchors": ["monero_glue/protocol/tsx_sign_builder.py:_compute_masks", "monero_glue/protocol/tsx_sign_builder.py:_gen_commitment", "monero_glue/protocol/tsx_sign_builder.py:sign_input"]}
{"id": "C09", "title": "The device itself guarantees that every registered input is signed exactly once", "statement": "For every host, if a session completes, then each registered input was signed exactly once. (Suspected false: the permutation received from the host is only length-checked.)", "quantifier": "every sequence of host messages, every permutation message", "why_tests_cant": "requires reasoning about arbitrary index lists a hostile host may send", "anchors": ["monero_glue/protocol/tsx_sign_builder.py:_tsx_inputs_permutation", "monero_glue/protocol/tsx_sign_builder.py:sign_input"]}
{"id": "C10", "title": "Every output is covered by a range proof before signing starts", "statement": "When the device answers the closing-outputs message, every output it processed is covered by exactly one range proof that the device generated or checked. (Suspected false for the last offloaded batch.)", "quantifier": "all batch layouts, all message sequences", "why_tests_cant": "all groupings and all orders of the offloading protocol", "anchors": ["monero_glue/protocol/tsx_sign_builder.py:_s6_validate", "monero_glue/protocol/tsx_sign_builder.py:_process_range_proof", "monero_glue/protocol/tsx_sign_builder.py:all_out1_set"]}
{"id": "C11", "title": "Change goes to the wallet's own address", "statement": "Init succeeds only if the declared change destination is absent, or is one of the outputs and is the wallet's own primary address; the only exception is a zero-amount change in a two-output transaction.", "quantifier": "every init message", "why_tests_cant": "all destination lists and change claims", "anchors": ["monero_glue/protocol/tsx_sign_builder.py:check_change"]}
{"id": "C12", "title": "Suspending the device between two messages changes nothing", "statement": "Saving the signing state after a message and restoring it before the next one yields the same answers to every continuation as keeping the signer in memory.", "quantifier": "every message history and every suspension point", "why_tests_cant": "history- and crash-point-quantified", "anchors": ["monero_glue/protocol/tsx_sign_state_holder.py", "monero_glue/protocol/tsx_sign_builder.py:state_save", "monero_glue/protocol/tsx_sign_builder.py:state_load"]}
{"id": "C13", "title": "Per-purpose session keys never share their derivation input", "statement": "Two different (purpose, index) pairs used by the signer never hash the same buffer; hence tags and ciphertext keys of different purposes/positions are independent if the hash is collision free. Indices too large for the buffer raise instead of truncating.", "quantifier": "all purposes and all index values", "why_tests_cant": "all pairs of indices", "anchors": ["monero_glue/protocol/tsx_sign_builder.py:_build_key"]}
{"id": "C14", "title": "Streaming pre-signature hash equals the one-shot hash", "statement": "Feeding type, fee, pseudo-outs, ECDH infos, output keys, and range proofs one by one, in the order the device does, hashes exactly the byte string that the non-streaming computation hashes for the completed signature object.", "quantifier": "all numbers of inputs/outputs/proofs and all field values", "why_tests_cant": "unbounded sizes", "anchors": ["monero_glue/xmr/sub/mlsag_hasher.py:PreMlsagHasher", "monero_glue/xmr/mlsag2.py:get_pre_mlsag_hash"]}
{"id": "C15", "title": "Key images are released only for the committed set", "statement": "In a key-image sync session the decryption key is handed out only if the host sent exactly the announced number of outputs and they hash to the announced digest; any error drops the session.", "quantifier": "every message history", "why_tests_cant": "all adversarial histories", "anchors": ["monero_glue/protocol/key_image_sync.py:KeyImageSync", "monero_glue/hwtoken/token.py:TokenLite.key_image_sync"]}
{"id": "C16", "title": "Key image import works for every number of outputs", "statement": "For every list of outputs, the agent's import procedure together with an accepting device ends by returning one key image per output. (Suspected false when the count is a multiple of ten.)", "quantifier": "all output list lengths", "why_tests_cant": "a length-dependent failure that only shows for particular lengths", "anchors": ["monero_glue/agent/agent_lite.py:Agent.import_outputs", "monero_glue/xmr/common.py:chunk", "monero_glue/protocol/key_image_sync.py:step"]}
{"id": "C17", "title": "Range-proof batching covers all outputs with legal batch sizes", "statement": "For every number of outputs the chosen batches are positive, at most 16, powers of two except possibly the last, and add up to the number of outputs.", "quantifier": "all output counts", "why_tests_cant": "unbounded counts", "anchors": ["monero_glue/agent/agent_lite.py:generate_rsig_batch_sizes", "monero_glue/agent/agent_lite.py:get_rsig_type"]}
{"id": "C18", "title": "Host and device agree on batch boundaries", "statement": "For every batch layout accepted at init, the device demands/produces a proof exactly at the last output of each batch, and the batch size it uses equals the host's batch size.", "quantifier": "all batch layouts and output indices", "why_tests_cant": "all layouts", "anchors": ["monero_glue/protocol/tsx_sign_builder.py:_is_last_in_batch", "monero_glue/protocol/tsx_sign_builder.py:_get_rsig_batch", "monero_glue/agent/agent_lite.py"]}
{"id": "C19", "title": "Varint encoding is a prefix-free round trip", "statement": "Every non-negative integer written as a varint is read back exactly, leaving the rest of the stream untouched; negative integers are rejected.", "quantifier": "all integers and all stream suffixes", "why_tests_cant": "infinite domain", "anchors": ["monero_glue/protobuf.py:dump_uvarint", "monero_glue/protobuf.py:load_uvarint"]}
{"id": "C20", "title": "Signed integer mapping round-trips", "statement": "The sint<->uint mapping used on the wire is a bijection between integers and naturals.", "quantifier": "all integers", "why_tests_cant": "infinite domain", "anchors": ["monero_glue/protobuf.py:sint_to_uint", "monero_glue/protobuf.py:uint_to_sint"]}
{"id": "C21", "title": "Wire messages round-trip", "statement": "Serialising any well-typed message (scalar, bytes, text, nested and repeated fields) and parsing it yields the same message, with missing optional fields as None and empty repeated fields as empty lists; unknown fields are skipped.", "quantifier": "all message schemas and all messages", "why_tests_cant": "recursive, unbounded messages", "anchors": ["monero_glue/protobuf.py:dump_message", "monero_glue/protobuf.py:load_message"]}
{"id": "C22", "title": "Truncated wire messages are rejected", "statement": "Parsing a strict prefix of a serialised message fails. (Suspected false.)", "quantifier": "all messages and cut points", "why_tests_cant": "all cut points of all messages", "anchors": ["monero_glue/protobuf.py:load_message"]}
{"id": "C23", "title": "Monero base58 round-trips", "statement": "Decoding the base58 encoding of any byte string returns it.", "quantifier": "all byte strings", "why_tests_cant": "unbounded length", "anchors": ["monero_glue/misc/b58_mnr.py:encode/decode"]}
{"id": "C24", "title": "Monero base58 decoding is canonical", "statement": "Two different texts never decode to the same bytes. (Suspected false: overflow check is off by one.)", "quantifier": "all pairs of texts", "why_tests_cant": "infinite domain", "anchors": ["monero_glue/misc/b58_mnr.py:decode_block"]}
{"id": "C25", "title": "Addresses round-trip and reject corrupted checksums", "statement": "Decoding an encoded standard, integrated or sub-address returns the network, spend key, view key and payment id; an address whose checksum does not match is rejected.", "quantifier": "all keys, networks, payment ids", "why_tests_cant": "infinite domain", "anchors": ["monero_glue/xmr/sub/addr.py:public_addr_encode/encode_addr/decode_addr"]}
{"id": "C26", "title": "An address is tagged as a sub-address exactly when its index is not (0,0)", "statement": "Building address information for an index flags a sub-address iff the index differs from (0,0). (Suspected false.)", "quantifier": "all indices", "why_tests_cant": "all pairs", "anchors": ["monero_glue/xmr/monero.py:build_address_info", "monero_glue/xmr/sub/addr.py:AccountAddress.recompute_sub"]}
{"id": "C27", "title": "Bitcoin base58 round-trips", "statement": "b58decode(b58encode(b)) = b for every byte string including leading zeros.", "quantifier": "all byte strings", "why_tests_cant": "unbounded length", "anchors": ["monero_glue/misc/b58.py"]}
{"id": "C28", "title": "Seed words round-trip", "statement": "Decoding the words of any seed whose length is a multiple of four bytes gives the seed back.", "quantifier": "all seeds", "why_tests_cant": "2^256 seeds", "anchors": ["monero_glue/xmr/core/mnemonic.py:mn_encode/mn_decode"]}
{"id": "C29", "title": "A wrong seed checksum word is rejected", "statement": "A 25-word seed whose checksum word is wrong is rejected. (Suspected false: the checksum is never evaluated.)", "quantifier": "all seeds and words", "why_tests_cant": "infinite domain", "anchors": ["monero_glue/xmr/core/mnemonic.py:mn_decode"]}
{"id": "C30", "title": "Bit-packing of word indices round-trips", "statement": "Splitting bytes into 11-bit indices and joining them back gives the same bytes.", "quantifier": "all byte strings of legal length", "why_tests_cant": "infinite domain", "anchors": ["monero_glue/misc/bip/bip32.py:Wallet.bytes_to_indices", "monero_glue/misc/bip/bip32.py:Wallet.indices_to_bytes"]}
{"id": "C31", "title": "A wallet's child lookup returns the child that was asked for", "statement": "Whatever lookups were made before, asking a wallet for a child returns the child for the requested index and hardening. (Suspected false for keyword arguments because of the cache key.)", "quantifier": "all call histories", "why_tests_cant": "history dependent", "anchors": ["monero_glue/misc/bip/utils.py:memoize", "monero_glue/misc/bip/bip32.py:Wallet.get_child"]}
{"id": "C32", "title": "Ring offsets round-trip", "statement": "Converting sorted absolute output offsets to relative ones and summing them up gives the same offsets; no offset becomes negative.", "quantifier": "all offset lists", "why_tests_cant": "unbounded lists", "anchors": ["monero_glue/xmr/sub/tsx_helper.py:absolute_output_offsets_to_relative"]}
{"id": "C33", "title": "Input permutation keeps inputs, tags and keys aligned", "statement": "Sorting inputs by key image and applying the permutation to every per-input list yields the sorted list, loses and duplicates nothing and keeps the lists aligned; invalid permutations are rejected by the checker.", "quantifier": "all lists and permutations", "why_tests_cant": "all permutations of all sizes", "anchors": ["monero_glue/xmr/common.py:apply_permutation/check_permutation"]}
{"id": "C34", "title": "Chunking a list loses nothing", "statement": "Concatenating the chunks gives the list back and no chunk exceeds the requested size.", "quantifier": "all lists and sizes", "why_tests_cant": "unbounded", "anchors": ["monero_glue/xmr/common.py:chunk"]}
{"id": "C35", "title": "Scalar and field-element byte and limb encodings round-trip", "statement": "32-byte encodings and the 26/25-bit and 30-bit limb encodings represent the same integer and convert back.", "quantifier": "all 256-bit integers", "why_tests_cant": "2^256 values", "anchors": ["monero_glue/xmr/core/ec_base.py", "monero_glue/xmr/core/ec_conv.py", "monero_glue/xmr/core/ec_py.py:encodeint/decodeint"]}
{"id": "C36", "title": "Payment ids round-trip through the transaction extra field", "statement": "A short payment id encrypted by the sender and written to extra is recovered by the recipient; long ids are recovered verbatim; the transaction public key and additional keys are found again in extra.", "quantifier": "all ids and keys", "why_tests_cant": "infinite domain", "anchors": ["monero_glue/protocol/tsx_sign_builder.py:_process_payment_id", "monero_glue/xmr/sub/tsx_helper.py"]}
{"id": "C37", "title": "Amounts hidden for the recipient are recovered", "statement": "Decoding the encoded amount/mask with the shared secret returns amount (< 2^64) and mask, for both encodings.", "quantifier": "all amounts, masks, secrets", "why_tests_cant": "infinite domain", "anchors": ["monero_glue/xmr/ring_ct.py:ecdh_encode/ecdh_decode", "monero_glue/protocol/tsx_sign_builder.py:_set_out1_ecdh"]}
{"id": "C38", "title": "The recipient can spend what was sent", "statement": "For standard and sub-address recipients, with or without additional keys, and for change, the one-time output key built by the sender is recognised by the recipient's view key, and the recipient's derived secret opens it.", "quantifier": "all keys, indices and transaction keys", "why_tests_cant": "algebraic identity over all keys", "anchors": ["monero_glue/protocol/tsx_sign_builder.py:_set_out1_derivation", "monero_glue/xmr/monero.py:generate_key_image_helper"]}
{"id": "C39", "title": "Key image computed on device matches the output's secret", "statement": "The spend secret x returned for an owned output satisfies x*G = output key and the key image is x*Hp(output key); mismatching outputs are rejected.", "quantifier": "all keys", "why_tests_cant": "algebraic, all keys", "anchors": ["monero_glue/xmr/monero.py:generate_key_image_helper_precomp"]}
{"id": "C40", "title": "Plain and one-member signatures verify", "statement": "Signatures made by the signing function verify under the corresponding public key, for every message, key and nonce; likewise key-image ring signatures for every ring size and position.", "quantifier": "all messages, keys, nonces, rings", "why_tests_cant": "infinite domain", "anchors": ["monero_glue/xmr/crypto.py:generate_signature/check_signature", "monero_glue/xmr/ring_ct.py:generate_ring_signature/check_ring_singature"]}
{"id": "C41", "title": "Borromean range signatures verify", "statement": "Range signatures generated for any bit vector verify.", "quantifier": "all bit vectors and nonces", "why_tests_cant": "infinite domain", "anchors": ["monero_glue/xmr/mlsag2.py:gen_borromean/verify_borromean"]}
{"id": "C42", "title": "MLSAG ring signatures verify", "statement": "A multi-layer ring signature produced by the signer (simple and full variants) is accepted by the verifier for every ring size >= 2, secret position, messages, and masks balancing the commitments.", "quantifier": "all ring sizes, positions, keys, nonces", "why_tests_cant": "infinite domain", "anchors": ["monero_glue/xmr/mlsag2.py:gen_mlsag_ext/ver_mlsag_ext/prove_rct_mg_simple/ver_rct_mg_simple"]}
{"id": "C43", "title": "CLSAG ring signatures verify", "statement": "A compact ring signature produced by the signer is accepted by the verifier for every ring size, secret position, keys and masks.", "quantifier": "all ring sizes, positions, keys, nonces", "why_tests_cant": "infinite domain", "anchors": ["monero_glue/xmr/mlsag2.py:generate_clsag_simple", "monero_glue/xmr/mlsag2.py:verify_clsag"]}
{"id": "C44", "title": "Range proofs verify", "statement": "The proof produced for amounts below 2^64 and masks (1 to 16 amounts) is accepted by the verifier, alone and in any batch, whatever weights the verifier draws, unless a challenge hashes to zero.", "quantifier": "all amounts, masks, challenges", "why_tests_cant": "infinite domain", "anchors": ["monero_glue/xmr/bulletproof.py:BulletProofBuilder.prove_batch/verify_batch"]}
{"id": "C45", "title": "Range proofs use secret blinding", "statement": "The blinding factors of a range proof depend on secret randomness. (Suspected false: seeds are constants.)", "quantifier": "all proofs", "why_tests_cant": "needs reasoning about all executions", "anchors": ["monero_glue/xmr/bulletproof.py:_prove_setup, PRNG"]}
{"id": "C46", "title": "Lazily computed vectors behave like arrays", "statement": "Reading any element of a lazily computed vector, in any order and any number of times, returns the value of the mathematical vector at that index. (Suspected false after a caught out-of-order access.)", "quantifier": "all access histories", "why_tests_cant": "history dependent", "anchors": ["monero_glue/xmr/bulletproof.py:KeyVPowers/KeyR0/KeyVPrngMask"]}
{"id": "C47", "title": "Chunked vectors behave like arrays", "statement": "For every sequence of writes and reads a chunked byte vector returns the last value written at the index.", "quantifier": "all operation sequences", "why_tests_cant": "history dependent", "anchors": ["monero_glue/xmr/bulletproof.py:KeyV"]}
{"id": "C48", "title": "Serialised range proofs parse back", "statement": "The compact serialised proof sent by the device is parsed into the same proof for at most 127 rounds.", "quantifier": "all proofs", "why_tests_cant": "infinite domain", "anchors": ["monero_glue/protocol/tsx_sign_builder.py:_dump_rsig_bp", "monero_glue/hwtoken/misc.py:dump_rsig_bp"]}
{"id": "C49", "title": "Curve addition and doubling stay on the curve", "statement": "Adding, doubling and scalar-multiplying points by the Python formulas keeps them on the curve and agrees with the affine Edwards law.", "quantifier": "all points and scalars", "why_tests_cant": "2^255 points", "anchors": ["monero_glue/xmr/core/backend/ed25519_2.py"]}
{"id": "C50", "title": "Field inversion is inversion", "statement": "The addition chain used for inversion returns z^(q-2), i.e. the inverse of every non-zero field element; scalar inversion likewise.", "quantifier": "all field elements", "why_tests_cant": "2^255 elements", "anchors": ["monero_glue/xmr/core/backend/ed25519_2.py:inv", "monero_glue/xmr/core/ec_py.py:sc_inv"]}
{"id": "C51", "title": "Incremental hashing equals one-shot hashing", "statement": "Feeding a message to the hash in any pieces yields the same digest as at once.", "quantifier": "all messages and splits", "why_tests_cant": "all splits", "anchors": ["monero_glue/xmr/core/backend/keccak2.py"]}
{"id": "C52", "title": "Secret blinding in the lite protocol is reversible", "statement": "A host that follows the lite protocol can unblind what the device blinded.", "quantifier": "all amounts/masks/keys", "why_tests_cant": "infinite domain", "anchors": ["monero_glue/protocol_lite/lite.py:blind/unblind"]}
{"id": "C53", "title": "Lite protocol integer and length fields round-trip", "statement": "Fields inserted into a lite message are fetched back unchanged, and out-of-range fetches are refused.", "quantifier": "all messages", "why_tests_cant": "infinite domain", "anchors": ["monero_glue/protocol_lite/lite.py:_insert*/_fetch*"]}
{"id": "C54", "title": "Encrypted wallet data round-trips and tampering is detected", "statement": "Decrypting what was encrypted under the same key returns the plaintext; a modified signature or ciphertext is rejected unless it verifies.", "quantifier": "all plaintexts/keys", "why_tests_cant": "infinite domain", "anchors": ["monero_glue/xmr/enc/chacha.py", "monero_glue/xmr/enc/chacha_poly.py", "monero_glue/xmr/enc/aescbc.py"]}
{"id": "C55", "title": "Restore-height search terminates with a block before the date", "statement": "The binary search over block timestamps terminates and its result brackets the requested date.", "quantifier": "all monotone chains", "why_tests_cant": "unbounded chains", "anchors": ["monero_glue/xmr/wallet.py:get_blockchain_height_by_date"]}
{"id": "C56", "title": "The returned prefix hash is the hash of the transaction prefix", "statement": "The prefix hash the device returns when the outputs are closed is the hash of the serialised transaction prefix made of the unlock time of the init message, the accepted inputs in the presented order, the outputs the device returned, and the returned extra field.", "quantifier": "every message history", "why_tests_cant": "all histories and sizes", "anchors": ["monero_glue/protocol/tsx_sign_builder.py:all_out1_set_tx_prefix", "monero_glue/protocol/tsx_sign_builder.py:all_out1_set"]}
{"id": "C57", "title": "Every signature is over the session's message with the right key", "statement": "Every ring signature the device hands out was made for the message digest it returned when the outputs were closed, over the presented ring, with a secret key matching the real ring member and a mask opening its commitment to the presented amount.", "quantifier": "every message history", "why_tests_cant": "all histories", "anchors": ["monero_glue/protocol/tsx_sign_builder.py:sign_input"]}
{"id": "C58", "title": "Every point has exactly one accepted byte encoding", "statement": "If 32 bytes decode to a point, encoding that point gives the same 32 bytes; two different byte strings never stand for the same key.", "quantifier": "all 32-byte strings", "why_tests_cant": "the offending strings are 40 out of 2^256", "anchors": ["monero_glue/xmr/core/backend/ed25519_2.py:decodepoint/encodepoint"]}
{"id": "C59", "title": "Points off the curve and out-of-range scalars are rejected", "statement": "The checks run before key derivation, key comparison and signing accept exactly the points of the curve and the scalars 1 to l-1.", "quantifier": "all coordinate quadruples and integers", "why_tests_cant": "invalid values are never produced by honest code", "anchors": ["monero_glue/xmr/core/ec_py.py:check_ed25519point/ge_frombytes_vartime_check/point_eq/sc_check"]}
{"id": "C60", "title": "Hashing to a point always gives a valid generator", "statement": "For every input, hash_to_point returns a point that is on the curve and in the subgroup of prime order.", "quantifier": "all hash values", "why_tests_cant": "the branches of the map partition 2^255 values by residue class; special values cannot be found by sampling", "anchors": ["monero_glue/xmr/core/ec_py.py:hash_to_point", "monero_glue/xmr/core/ec_base.py:fe_fffb1..4"]}
{"id": "C61", "title": "Dividing by eight and multiplying by eight cancel", "statement": "For points of the prime-order subgroup, point_mulinv8 followed by point_mul8 is the identity (used by bulletproof serialization).", "quantifier": "all points of the subgroup", "why_tests_cant": "2^252 points", "anchors": ["monero_glue/xmr/core/ec_py.py:point_mulinv8/point_mul8"]}
{"id": "C62", "title": "The built-in hash is Keccak", "statement": "The digest the built-in hash returns for any message is that of the Keccak sponge with the original Keccak padding, as published: bit for bit the output of the 24-round permutation over the padded message, for every rate and digest size that fits, and 256 bits at rate 1088 by default.", "quantifier": "all messages, rates and digest sizes", "why_tests_cant": "infinite domain; tests compare a few vectors", "anchors": ["monero_glue/xmr/core/backend/keccak2.py:keccak_f/KeccakSponge/KeccakHash"]}
{"id": "C63", "title": "A lite device validates only outputs the user confirmed", "statement": "In real signing mode the lite device accepts an output only if its commitment opens to the amount the device unblinds, and only if the destination is its own main address or the user confirmed that destination with that amount; and the outputs it validates up to the last one are exactly the amounts it blinded before.", "quantifier": "every state, every command, every session", "why_tests_cant": "all command sequences of a hostile host", "anchors": ["monero_glue/protocol_lite/lite.py:mlsag_prehash_init/mlsag_prehash_update/blind"]}
{"id": "C64", "title": "A lite device signs only what was confirmed", "statement": "The device gives out a response made with a secret key and a nonce only for a transaction whose outputs were validated and confirmed before.", "quantifier": "every state and session", "why_tests_cant": "all command sequences of a hostile host", "anchors": ["monero_glue/protocol_lite/lite.py:mlsag_hash/mlsag_sign/set_signature_mode"]}
{"id": "C65", "title": "A nonce is used for one signature", "statement": "No nonce the lite device made is used for two responses with different challenges.", "quantifier": "every session", "why_tests_cant": "all command sequences of a hostile host", "anchors": ["monero_glue/protocol_lite/lite.py:mlsag_prepare/mlsag_sign"]}
{"id": "C66", "title": "Storing keys in a lite device is all or nothing", "statement": "The lite device accepts new keys exactly when both public keys belong to the secrets sent with them; when it accepts them all its keys, secret and public, are the new ones, and when it refuses nothing changes.", "quantifier": "every state and message", "why_tests_cant": "infinite domain", "anchors": ["monero_glue/protocol_lite/lite.py:put_key/get_key"]}
{"id": "C67", "title": "Key verification tells matching keys from others", "statement": "Asked to verify a key pair the lite device answers yes exactly when the public key belongs to the secret, in each of its three modes.", "quantifier": "every state and message", "why_tests_cant": "infinite domain", "anchors": ["monero_glue/protocol_lite/lite.py:verify_key"]}
{"id": "C68", "title": "The response of a lite device closes the ring", "statement": "With the nonce points and the key image the device returned when preparing a ring column, and the challenge of the last hash, the response it returns satisfies both ring equations of the column, for every key, nonce and challenge.", "quantifier": "every state, key, nonce and challenge", "why_tests_cant": "infinite domain", "anchors": ["monero_glue/protocol_lite/lite.py:mlsag_prepare/mlsag_hash/mlsag_sign"]}
{"id": "C69", "title": "A wallet keys file can be loaded again", "statement": "Loading the keys file generated for a wallet with the same password gives back the key data and the other fields, for every wallet; and generating it does not change the wallet.", "quantifier": "all wallets and passwords", "why_tests_cant": "depends on the bytes of random keys; about one wallet in 500 is affected", "anchors": ["monero_glue/xmr/wallet.py:gen_keys_file/load_keys_data"]}
{"id": "C70", "title": "Keys derived in a lite device match", "statement": "Deriving a secret key in the lite device and asking for its public key gives the same answer as deriving the public key, for every derivation, index and key. The sub-address, its spend key and its secret are the standard ones for the index, the key image is the secret times the hash of the key to a point, and looking for the spend key behind a one-time key undoes deriving it.", "quantifier": "every state, derivation, index and key", "why_tests_cant": "infinite domain", "anchors": ["monero_glue/protocol_lite/lite.py:derive_secret_key/derive_public_key/secret_key_to_public_key/generate_key_image/derive_subaddress_public_key/get_subaddress/get_subaddress_spend_public_key/get_subaddress_secret_key"]}
{"id": "C71", "title": "Pseudo-random stream", "statement": "The deterministic generator reads one stream per seed: several reads give the same bytes as one long read, skipping n bytes equals reading and dropping them, and a reset starts the stream again.", "quantifier": "every seed and every sequence of reads, skips and resets", "why_tests_cant": "infinite histories; a test of single reads misses what happens between calls", "anchors": ["monero_glue/xmr/core/ec.py:PRNG.next/rewind/reset"]}
{"id": "C72", "title": "An honest transaction is signed", "statement": "If the host is given sources the wallet can spend, destinations it can pay and the user agrees, the host ends with a transaction, whatever the device draws and whatever it was doing before: every source is spent once with its key image, every destination gets its output, commitments balance with the fee, every ring signature is over the hash of this very transaction, range proofs cover all outputs, and the device has forgotten the session.", "quantifier": "every request, wallet, randomness and earlier device state", "why_tests_cant": "the whole two-party protocol, any number of inputs and outputs", "anchors": ["monero_glue/agent/agent_lite.py:sign_transaction_data", "monero_glue/hwtoken/token.py:TokenLite.tsx_sign", "monero_glue/protocol/tsx_sign_builder.py:TransactionSigningBuilder"]}
{"id": "C73", "title": "Recipients find what they were sent", "statement": "In a transaction obtained by the host the owner of every destination, standard address, subaddress or change, finds their output, its mask and amount with the transaction key or the additional key at its place, and the one payee decrypts a short payment id.", "quantifier": "every request, address, mixture of address kinds and randomness", "why_tests_cant": "all mixtures of destinations and all keys", "anchors": ["monero_glue/agent/agent_lite.py:sign_transaction_data", "monero_glue/protocol/tsx_sign_builder.py:_s6_set_out_derivation/_s6_set_out_additional_keys/process_payment_id"]}
{"id": "C74", "title": "What the host obtains is what was asked for", "statement": "If the host ends a signing session with a transaction, for any request at all, then the user confirmed it, every source belongs to the wallet and is spent once, every destination is paid, the change goes to the wallet's own address, amounts, masks and fee balance, the range proofs cover all outputs, and every ring signature is over this very transaction. Requests with foreign sources or foreign change give no transaction.", "quantifier": "every request (including malformed and hostile ones), user behaviour, randomness and failure of the signature prover", "why_tests_cant": "all requests and all histories of failures", "anchors": ["monero_glue/agent/agent_lite.py:sign_transaction_data", "monero_glue/protocol/tsx_sign_builder.py"]}
{"id": "C75", "title": "A signed transaction passes the network's checks", "statement": "If the sources of a request are different outputs of the wallet, the transaction the host obtains is accepted by a verifier that reads only its bytes and the rings: every input's ring signature verifies over the hash of this very transaction against its key image and pseudo output, key images strictly descend, range proofs verify for the output commitments, and the pseudo outputs add up to outputs and fee. An honest request gives such a transaction.", "quantifier": "every wallet, request, randomness and earlier device state", "why_tests_cant": "the whole protocol with real curve arithmetic, signatures and range proofs, any number of inputs and outputs", "anchors": ["monero_glue/agent/agent_lite.py:sign_transaction_data", "monero_glue/protocol/tsx_sign_builder.py:TransactionSigningBuilder", "monero_glue/xmr/mlsag2.py:ver_rct_mg_simple", "monero_glue/xmr/bulletproof.py:BulletProofBuilder.verify"]}
{"id": "C76", "title": "What a wallet receives it can read and spend", "statement": "For every output of a signed transaction that goes to an address of a wallet (also the sender's own), the wallet reads the amount and mask from the transaction with its view key, and a later signing request that uses the output as a source finds it to be its own.", "quantifier": "every sender, recipient, address index, mixture of destinations and randomness", "why_tests_cant": "two wallets and two transactions, all keys and indices", "anchors": ["monero_glue/agent/agent_lite.py:sign_transaction_data", "monero_glue/xmr/monero.py:generate_key_image_helper/ecdh_decode_simple/compute_subaddresses/generate_sub_address_keys"]}
{"id": "C77", "title": "Imported key images are the ones that appear when the outputs are spent", "statement": "When the host imports the key images of received outputs, it gets one entry per output, in order. Each entry is a key image and a signature over it under the key of the output that a wallet accepts, and the key image is the one found in every later transaction of the wallet that spends the output. Outputs sent to any address of the wallet are imported if the user confirms (up to the failure for multiples of ten in C16 and a zero response of the signature).", "quantifier": "for all lists of received outputs, all senders, all addresses and orders of the sub-address sets, all device randomness and every later signed request", "why_tests_cant": "whether a wallet notices that its outputs are spent depends on the agreement of two long computations (import and signing) for every output, table and address index", "anchors": ["monero_glue/agent/agent_lite.py: import_outputs", "monero_glue/xmr/key_image.py: yield_key_image_data, generate_commitment, export_key_image", "monero_glue/protocol/key_image_sync.py: KeyImageSync", "monero_glue/xmr/ring_ct.py: export_key_image", "monero_glue/xmr/monero.py: get_tx_pub_key_from_received_outs"]}
{"id": "C78", "title": "Offloading the range proof does not change it", "statement": "When the Bulletproof prover is split between a device and a host that computes on blinded vectors, the host ends with the same proof as the prover that has everything in memory, for each of the four methods, every chunk size and threshold that fits, and whatever blinding factors the device draws; the proof is accepted by the verifier.", "quantifier": "for all amounts and masks (1, 2, 4, 8, 16 or 32 of them), nonces, nonzero blinding factors, methods, chunk sizes and thresholds", "why_tests_cant": "the dialogue has dozens of messages and saved states, four methods and three sizes that interact; tests run a few parameter choices with fixed amounts", "anchors": ["monero_glue/xmr/bulletproof.py: BulletProofBuilder.prove_batch_off, prove_batch_off_step, _phase1_lr, _phase1_post, _phase2_loop0_clcr, _phase2_loop_offdot, _phase2_loop_fold, _phase2_loop_full", "monero_glue/xmr/bulletproof_cl.py: BulletproofClient.compute_bp, comp_offdots, comp_folding"]}
{"id": "C79", "title": "Keys derived from a seed are the keys of BIP32", "statement": "For every seed and every path text (m/44'/128'/0, hardened steps marked with ' or p), looking up the path from the wallet of the seed succeeds exactly when BIP32 defines a node there, and then the private key, the public key, the chain code, the depth, the parent fingerprint and the child number are those of BIP32; the serialized private and public forms are the 78 bytes of BIP32, and the address is the Base58Check text of the network byte and the key hash. Single steps with a number, a hardening flag or a negative number give the corresponding children.", "quantifier": "all seeds, networks, paths of any length (serialization up to depth 255), all HMAC-SHA512 and hash functions with the right output lengths", "why_tests_cant": "infinitely many seeds and paths; the leading zeros of keys, the reduction modulo the order and invalid keys are rare", "anchors": ["monero_glue/misc/bip/bip32.py: Wallet.from_master_secret, get_child, get_child_for_path, serialize, serialize_b58, to_address", "monero_glue/misc/bip/keys.py: PrivateKey, PublicKey", "monero_glue/misc/bip/utils.py: long_to_hex"]}
{"id": "C80", "title": "A public-only wallet derives the same public children", "statement": "A path that starts with M or ends with .pub gives a node without private key whose public key is the one BIP32 derives, and a wallet that holds only a public key derives the ordinary children of its node. (The second half is false: such a wallet cannot derive any child.)", "quantifier": "all seeds, networks, paths; all public wallets, child numbers and flags", "why_tests_cant": "for every wallet and number", "anchors": ["monero_glue/misc/bip/bip32.py: Wallet.public_copy, get_child, get_child_for_path, create_new_address_for_user"]}
{"id": "C81", "title": "Serialized wallets are read back unchanged", "statement": "Serializing a derived wallet, with or without its private key, and reading the bytes, the hex text or the Base58 text gives a wallet with the same keys, chain code, depth, fingerprint, number and network, equal to the original; what is accepted is the serialization of what it gives. (False for depths above 255, for equality outside the Bitcoin main network, and for truncated bytes, which are accepted.)", "quantifier": "all seeds, paths, the twelve networks, the three forms; all byte strings of 78 bytes", "why_tests_cant": "all byte strings; square roots of all points", "anchors": ["monero_glue/misc/bip/bip32.py: Wallet.serialize, serialize_b58, deserialize, __eq__", "monero_glue/misc/bip/keys.py: PublicKey.from_hex_key", "monero_glue/misc/bip/network.py"]}
{"id": "C82", "title": "A key exported in the wallet import format is imported again", "statement": "The text exported for a private key or a wallet node imports, for the same network, as the same private key; other texts are refused. (False: the compressed form raises, derived nodes of other networks export Bitcoin's byte, ed25519 nodes export their public key, the marker byte is not checked.)", "quantifier": "all private keys, all derived wallets, the twelve networks", "why_tests_cant": "all keys and networks", "anchors": ["monero_glue/misc/bip/keys.py: PrivateKey.export_to_wif, from_wif, get_extended_key, Ed25519PrivateKey.get_extended_key", "monero_glue/misc/bip/bip32.py: Wallet.export_to_wif"]}
{"id": "C83", "title": "A parent's private key is recovered from its public form and a child's private key", "statement": "Given the public copy of a wallet and one of its ordinary children with private key, the recovery returns a wallet with the parent's private key; with a hardened child or a wallet that has its key it is refused. (False outside the Bitcoin main network: it raises.)", "quantifier": "all seeds, paths, child numbers, networks", "why_tests_cant": "all keys, reduction modulo the order", "anchors": ["monero_glue/misc/bip/bip32.py: Wallet.crack_private_key", "monero_glue/misc/bip/keys.py: PrivateKey.__sub__"]}
{"id": "C84", "title": "A seed or a list of words always gives the same standard wallet", "statement": "From a master seed the tool computes the private key BIP32 derives at the given path (by default m/44'/128'/0'/0/0), hashes it, and takes the hash as master secret of a standard Monero wallet: the spend key is the secret modulo the group order, the view key the hash of the spend key, and the words shown encode the secret. Those words, in any capitals and line breaks, restore the same wallet. With the SLIP-0010 option the master secret is the ed25519 key of SLIP-0010 modulo the group order. Mnemonic words give the seed BIP39 derives from them and the passphrase. (False with SLIP-0010 for seeds whose first key is not a possible secp256k1 key; false for Monero words passed as one text, which always raise.)", "quantifier": "all seeds, paths, master secrets, spellings of the words, passphrases; all digest functions with the right output lengths", "why_tests_cant": "all seeds and paths; rare seeds are refused; every layout of the words", "anchors": ["monero_glue/xmr/sub/seed.py: SeedDerivation.set_seed, set_monero_seed, clean_input, from_mnemonics, from_monero_mnemonics", "monero_glue/misc/bip/bip39_deriv.py: mnemonics_to_seed", "monero_glue/xmr/monero.py: generate_monero_keys", "monero_poc/seed.py"]}
{"id": "C85", "title": "Everything printed for a new wallet restores it", "statement": "When a new wallet is generated, its hex seed, its Monero words, its account file and its BIP39 words each restore the same spend and view keys with the project's own tools. (False for the BIP39 words: both ways of reading them give a wallet with other keys.)", "quantifier": "all random seeds of 32 bytes; all digest functions with the right output lengths; every spelling of the words", "why_tests_cant": "all seeds; a backup is only tried when it is needed", "anchors": ["monero_poc/trezor.py: create_wallet, open_account", "monero_glue/misc/bip/bip32.py: Wallet.to_seed_words", "monero_glue/misc/bip/bip39.py", "monero_glue/xmr/sub/seed.py: SeedDerivation", "monero_poc/seed.py"]}
{"id": "C86", "title": "A transaction made with the builder can be signed", "statement": "The transaction builder makes inputs of the wallet's own addresses, outputs to given receivers and change. Every input it generates, for any address of the wallet and with or without additional keys, is one that the wallet recognises as its own and can spend. The change goes to the wallet's own address and makes inputs equal outputs plus fee; it is refused exactly if there is not enough. A built transaction that pays somebody, spends different outputs and stays within the limits is signed by the wallet, and the network accepts it with the fee asked for. (False for inputs at other sub-addresses than the main one: the builder hands over the wrong half of their indices, and the wallet never signs.)", "quantifier": "all wallets, sub-addresses, amounts, random numbers, lists of inputs and outputs; all answers of the device", "why_tests_cant": "all wallets, random numbers and combinations of inputs; tests use one fixed wallet", "anchors": ["monero_glue/xmr/transaction_builder.py: TransactionBuilder.gen_input, check_input, gen_output, gen_change, build"]}
{"id": "C87", "title": "The wallet keeps the keys of its transactions, and they prove its payments", "statement": "With every transaction it signs, the device hands the host a salt, a multiplier and encrypted keys. The owner of the spend key can open them with the prefix hash of the transaction, and finds the secret transaction key and one additional key for every output if there are additional public keys. These belong to the public keys in the extra field. For every output paid to somebody, the right one of them and the address of the receiver determine one-time key, mask and encrypted amount, so the payment can be proved. When the keys are requested later, the host obtains exactly these keys, or their products with a given public key, in order.", "quantifier": "all requests for which the host obtains a transaction, all random numbers, all sets of destinations", "why_tests_cant": "all destination sets and random numbers; the device side of the later request is not in the repository", "anchors": ["monero_glue/hwtoken/misc.py: compute_tx_key", "monero_glue/protocol/tsx_sign_builder.py: final_msg", "monero_glue/agent/agent_lite.py: get_tx_key, get_tx_deriv, _get_tx_key_intern"]}
{"id": "C88", "title": "Key images obtained during a live refresh are right", "statement": "During a live refresh the host returns a key image only if the answer of the device opens with the view key and the key of the output, and contains a signature that relates the image to the output. For an image in the prime order subgroup that is not the one of the output, such a signature fixes the challenge in advance. An answer with the key image that the device exports is accepted, and it is the image found in every transaction that spends the output. (False outside that subgroup: a device can have the image plus a point of small order accepted.)", "quantifier": "all answers of the device, all outputs, salts and view keys", "why_tests_cant": "all answers, including those of a device that cheats", "anchors": ["monero_glue/agent/agent_lite.py: live_refresh, _compute_ki_enc_key_host", "monero_glue/xmr/ring_ct.py: check_ring_singature"]}
{"id": "C89", "title": "The amount typed is the amount sent, and the amount shown is the amount signed", "statement": "A decimal number typed as an amount at the command line reaches the wallet as exactly that number of smallest units, and the amounts shown for confirmation are the amounts that are signed. (False: amounts pass through binary floating point and are cut off, so 4.1 is sent as 4.099999999999 and the largest amounts can become larger; eight decimals are shown, so small amounts are shown as zero. What holds: bounds on both errors, and exactness for amounts with few binary digits, in particular whole ones.)", "quantifier": "all decimal texts with at most twelve decimals, all amounts below 2^64", "why_tests_cant": "there are 2^64 amounts, and which of them are hit by rounding is not visible in examples", "anchors": ["monero_poc/utils/misc.py: amount_to_uint64, TransferArgs.cut_amount, TransferArgs.cut_addr_amount", "monero_poc/agent.py: transfer_cmd", "monero_glue/xmr/wallet.py: conv_disp_amount", "monero_poc/trezor.py: do_T"]}
{"id": "C90", "title": "A command typed at the agent does what its documentation says", "statement": "Typing a transfer or a sweep as documented has the wallet prepare exactly that: the destinations with their amounts in the order typed, from the agent's account and the sub-addresses typed, with the priority, ring size and payment id typed. Whatever is typed, a transfer is requested only after it was confirmed and only for what the line says. What is submitted to the network is exactly what the device signed for the wallet's answer, after every question was answered with yes. (False for sweep_single, which never tells the wallet which output to sweep or where to; for words after a payment id, which are dropped silently, even if they are another payment; and for sweep_dust, which has the device sign without asking first.)", "quantifier": "all lines typed, all answers of the user, the wallet and the signer", "why_tests_cant": "all lines and all combinations of answers, with the effects in order", "anchors": ["monero_poc/utils/misc.py: parse_transfer_cmd, parse_sweep_all, parse_sweep_below, cut_index, cut_priority, cut_mixin, cut_addr_amount, cut_payment_id", "monero_poc/agent.py: do_transfer, do_sweep_dust, do_sweep_all, do_sweep_below, do_sweep_single, handle_address_input, transfer_cmd, sweep_params, sweep_cmd, transfer_params, sign_unsigned"]}
{"id": "C91", "title": "The signed set gives every spent transfer its own key image", "statement": "From an unsigned transaction set the agent makes a signed set: every transaction in it was confirmed on the device and is correctly signed for its request, and the key image returned for a transfer that was spent is the key image of the output it was spent as, however the inputs were reordered for signing; the key images of all other transfers are returned as the wallet sent them. A set of honest transactions is signed. (False for the record of a transaction: its sources are in the order of the inputs while its list of selected transfers is not.)", "quantifier": "all sets of transactions, all selections of transfers, all wallets, randomness and answers of the user", "why_tests_cant": "all permutations of inputs over any number of transactions sharing one list", "anchors": ["monero_poc/agent.py: sign", "monero_glue/agent/agent_lite.py: sign_transaction_data", "monero_glue/xmr/wallet.py: construct_pending_tsx", "monero_glue/xmr/common.py: apply_permutation"]}
{"id": "C92", "title": "The account that is opened is the one asked for, and opens again", "statement": "A view key and the address it belongs to open the account of that address. A view key that does not belong to the address given is refused. A saved account opens again with its password and is the same account: view key, public keys, address, network, settings; it opens only with a password that gives the same encryption key. An account that is not the device's is refused when the device's address is checked. (False for the refusal: the agent replaces the view key in the address by its own before comparing them, so any address with a valid spend key, even a sub-address, opens, as another address; the network of the address is not compared with the agent's.)", "quantifier": "all view keys, addresses, networks, passwords, salts and nonces", "why_tests_cant": "all keys and addresses, over opening, saving and opening again", "anchors": ["monero_poc/agent.py: open_account_passed, open_account_file, load_watchonly, save_account, open_with_keys, set_address, recompute_address, check_address", "monero_poc/utils/misc.py: wallet_enc_key", "monero_glue/xmr/enc/chacha_poly.py: encrypt_pack, decrypt_pack"]}
{"id": "C93", "title": "The answer to a prompt is the user's, about the request shown", "statement": "The device server asks the user before it signs a transaction, releases key images or releases the view key. A transaction gets exactly the answer the user chose after being shown that transaction; key images are released only if the user chose so after being shown the request, the view key only if they chose so after the request arrived. Answers are never those to another request, whatever the interleaving of the terminal with the request. A request made while no other is in progress gets the answer that is typed. (False for the threaded server, where a second request takes the answer meant for the first; and an answer typed just before the waiting point is created is lost, and blocks the device for good.)", "quantifier": "all interleavings of the terminal and the requests, all histories of requests, answers and prompts given up", "why_tests_cant": "schedules: a test sees a few interleavings of two threads that share three variables", "anchors": ["monero_poc/trezor.py: TokenInterface.confirm_transaction, confirm_ki_sync, on_watch_only, do_T, do_K, do_W, serve_eventlet, serve_werkzeug", "monero_poc/utils/misc.py: CliPrompt.confirmation, wait_confirmation"]}
{"id": "C94", "title": "The agent starts on a wallet of its account, overwrites nothing, and starts again", "statement": "Starting the agent, successfully or not, changes no wallet keys file and no account file that exists. An agent that starts (with an initialised device) has a keys file that opens with its password and holds the public keys of its account: an existing file with other keys, or that does not open, stops the start; a new one is made watch-only from the account, with the restore height the user confirmed. If the device does not give its view key, the start stops and nothing is written. After a start that made the account file, the agent starts again with that file and the password alone, asks nothing, and is the same agent. A number or date typed as restore height and confirmed is the height. (False: a date that cannot be resolved can end up, as text, as the height; negative heights are taken; given the view key and the address without a new account file, the agent asks for no password and uses the empty one.)", "quantifier": "all arguments, accounts, devices, passwords, contents of the disk, dialogues and randomness", "why_tests_cant": "all combinations of existing files, arguments and answers, over two starts", "anchors": ["monero_poc/agent.py: open_account, load_watchonly, load_params, check_params, prompt_password, check_existing_wallet_file, wallet_restore_param, ensure_watch_only, save_account", "monero_glue/xmr/wallet.py: load_keys_data, gen_keys_file"]}
{"id": "C95", "title": "The wallet process is run with the arguments meant, gets both passwords, and what it says is recorded", "statement": "Whatever characters the daemon address and the wallet file name contain, the shell command the agent makes runs the wallet program with exactly those two as arguments, the fixed options, the port, and the testnet option exactly on the testnet. The wallet is told, in this order, the password of the file and the sixteen letters and digits generated for its clients, once, and later nothing but quit. However its two outputs are mixed and cut into reads, every complete line is recorded once, and the wallet is taken as ready exactly if a line announces it. (False: the directory of the programs is not quoted; a password with a line end supplies both passwords; a line that comes in three or more reads is mutilated, and with it the announcement; lines of the error output are recorded as standard output; an unfinished last line is lost.)", "quantifier": "all file names, addresses, passwords and draws, all numbers of rounds of the loop, all interleavings of the two outputs and all ways to cut them into reads", "why_tests_cant": "how the operating system cuts output into reads cannot be controlled; all characters of a file name", "anchors": ["monero_poc/agent.py: wallet_rpc_main", "monero_poc/utils/misc.py: escape_shell, gen_simple_passwd"]}
{"id": "C96", "title": "Scanning a transaction credits a wallet with what it can spend, and with all of it", "statement": "Whatever the transaction: if a scan of it ends, every output credited is one the wallet has the secret key and the key image of, made for the address it is credited to, and the amount credited opens the commitment of the output; each output is credited once and the balance of an address is the sum of its credits; an output left out fits no address in the table. Of every transaction signed with the agent, the scan with the public keys in its extra field ends, and each destination of the wallet is credited with the amount that was asked for. (False: an amount written in the clear is believed whatever the commitment; an output that is seen again, which cannot be spent twice, is credited twice.)", "quantifier": "all transactions, view and spend keys, address tables, published keys, and all signing runs with all draws", "why_tests_cant": "that every amount credited opens a commitment is a statement about all encrypted amounts; tests scan a few recorded transactions", "anchors": ["monero_glue/xmr/monero.py: check_acc_out_precomp, scan_output, ecdh_decode_rv, ecdh_decode_simple, is_out_to_acc_precomp, generate_key_image_helper_precomp", "monero_glue_test/base_agent_test.py: receive"]}
{"id": "C97", "title": "Ed25519 signatures: signed is accepted, accepted satisfies the equation, one nonce for two messages gives the secret away", "statement": "For every secret and message the signature made is accepted with the public key of the secret; the secret scalar is the one RFC 8032 prescribes. A signature is accepted exactly when it and the key have the right lengths, decode to points of the curve and S B = R + k A for k the hash of R, key and message. The nonce repeats only if hashes collide modulo the group order, and two accepted signatures with one nonce and different hashes determine the discrete logarithm of the key. The check in affine coordinates agrees where the points are on the curve. (False: for each signature there is a second one, S is not required to be reduced; with the identity as public key one signature is valid for all messages; signing in affine coordinates always raises an exception.)", "quantifier": "all 64-byte hashes, secrets, messages, keys and candidate signatures", "why_tests_cant": "acceptance is an equation over a group of order about 2^255; tests try a few keys", "anchors": ["monero_glue/xmr/core/backend/ed25519_2.py: publickey_unsafe, signature_unsafe, checkvalid, Hint", "monero_glue/xmr/core/backend/ed25519.py: publickey, signature, checkvalid"]}
{"id": "C98", "title": "The three implementations of the curve agree", "statement": "Addition in affine coordinates is the textbook law for all pairs of integers, and multiplication repeated addition; addition and multiplication of the RFC 8032 code give the same points as those the agent computes with, and multiples of the base point are the same in all three. Points are written as the same bytes by all three, recovering x gives the same integer, reading with the check accepts the same bytes and gives the same coordinates, reading without it and writing gives the bytes back. The RFC 8032 reader agrees with the agent's on all bytes but one string. (False: that string, the identity with its sign bit set, is refused by the RFC code and read by the agent.)", "quantifier": "all integers, points, scalars and byte strings", "why_tests_cant": "the implementations differ in coordinates and in where they reduce; equality on all inputs is not reached by samples", "anchors": ["monero_glue/xmr/core/backend/ed25519.py: edwards, edwards_Minus, scalarmult, scalarmultbase, encodepoint, decodepoint, decodepointcheck, isoncurve, xrecover, sqroot", "monero_glue/xmr/core/backend/ed25519ietf.py: point_add, point_mul, recover_x, point_compress, point_decompress", "monero_glue/xmr/core/backend/ed25519_2.py"]}
{"id": "C99", "title": "Accepted signatures and range proofs prove what they claim", "statement": "Whoever answers two challenges for the same hashed points knows the secret: it is computed, by an explicit formula, from the two answers. Two accepted Schnorr signatures with one nonce point give the secret key of the public key; two accepted ring signatures over the same bytes give the secret key of a member of the ring, and the key image is the one of that key; a column of an MLSAG answered twice gives the secrets of all its keys, with their images; a member of a CLSAG answered twice gives the secret of the combined key and image, and two combinations with different coefficients give key and commitment one by one; from two accepted Borromean range proofs over the same points, without a hash collision between them, an opening of the commitment with an amount below 2^64 is computed. A key has only one image. All statements are up to points whose order divides eight. (False without that restriction: a ring signature whose challenges are multiples of eight is accepted unchanged for another key image.)", "quantifier": "all hashes and pairs of hashes that agree on single points, all keys, rings of any size, messages and pairs of accepted signatures", "why_tests_cant": "soundness is a statement about everything a forger could send; tests contain honest signatures and a few corrupted ones", "anchors": ["monero_glue/xmr/crypto.py: check_signature", "monero_glue/xmr/mlsag2.py: ver_borromean, ver_mlsag_ext, verify_clsag", "monero_glue/xmr/ring_ct.py: ver_range, check_ring_singature"]}
{"id": "C100", "title": "Bulletproofs can only be made for amounts in range", "statement": "A prover that knows its points as combinations of the generators, and answers a whole tree of challenges (as many first challenges as bits, two more second ones than commitments, three, two, and four in each round of the inner product argument, all later messages depending on the challenges before), has committed to numbers below 2^64 only, and to nothing but the generators for amounts and masks; or one of the equations of its answers is a relation between the generators. Conversely all commitments in range have such a tree. Each proof the program accepts, with two different weights, satisfies both equations for the challenges hashed from its bytes, and so is a leaf of such a tree. With amounts in range, equal commitments of inputs and of outputs and fee mean equal amounts as numbers: nothing is created by wrapping around the order of the group.", "quantifier": "any number of blocks that is a power of two, all fields, all modules with generators, all commitments, all strategies of the prover in the tree; all lists of fewer than 2^100 inputs and outputs", "why_tests_cant": "soundness is about every possible prover; tests contain honest proofs and a few corrupted ones", "anchors": ["monero_glue/xmr/bulletproof.py: BulletProofBuilder.verify_batch", "monero_glue/xmr/ring_ct.py: verify_bp"]}
{"id": "C101", "title": "Messages between the agent and the device arrive as they were sent", "statement": "With the message classes of the repository (266 classes, 190 numbers), every well-typed message of a class that can be sent reaches the device's handler unchanged, the handler runs once, and an answer that can be sent reaches the agent unchanged; a whole session through the server gives the states and answers of calling the device directly. Payloads that are no message do not change the device. All messages of the Monero protocol can be sent. The device's refusals should reach the agent as well.", "quantifier": "all messages with values of the described types, all devices (any function of message and state), all sessions, all payloads", "why_tests_cant": "tests exchange the messages of a few recorded transactions in one process and no refusals through the server", "anchors": ["monero_poc/utils/trezor_server_proxy.py: transfer_protobuf", "monero_poc/trezor.py: on_tx_sign, on_ki_sync, on_watch_only, unproto_req, proto_res", "monero_glue/protocol_base/messages.py: get_message_type, get_message_from_type", "monero_glue/messages", "monero_glue/protobuf.py"]}
{"id": "C102", "title": "Aggregate two-key signatures prove a key of every row", "statement": "The non-linkable Schnorr signature over a pair of keys is accepted exactly when its challenge chain closes, is accepted whenever it was generated with the secret of either key, and two acceptances with the same commitment and different answers yield a secret. The aggregate over many rows is accepted whenever each row was generated with a secret, and an accepted aggregate should show that the signer knows a secret of every row.", "quantifier": "all keys on the curve, all secrets, random scalars, positions and numbers of rows, any hash function", "why_tests_cant": "a test verifies what it signed itself; that others cannot sign is a statement about all signers", "anchors": ["monero_glue/trezor_unused/asnl.py: gen_schnorr_non_linkable, ver_schnorr_non_linkable, gen_asnl, ver_asnl"]}
{"id": "C103", "title": "Inverses by the Euclidean algorithm and conversions of coordinates are exact", "statement": "The extended Euclidean algorithm returns the greatest common divisor of any two integers with coefficients; the two modular inverses built on it return the inverse in the range of remainders whenever it exists and report its absence otherwise, and agree with the inversion by exponentiation the signer uses. Converting a point between affine, extended and completed coordinates does not change the point.", "quantifier": "all integers, all moduli (zero and negative ones included), all points in all coordinates", "why_tests_cant": "tests invert a few numbers; the algorithms loop or recurse over arbitrarily large integers of both signs", "anchors": ["monero_glue/xmr/core/ec_py.py: extended_gcd, modinv, mul_inverse_egcd, conv_xy_to_ext, conv_ext_to_xy, conv_p1p1_to_ext"]}
{"id": "C104", "title": "Messages to a real device keep their content in the library's classes", "statement": "Before a call, the message and every message inside it is turned into an object of the device library's class of the same name with the same content, byte arrays becoming byte strings; exactly one message is sent and the connection is closed whatever happens; the caller gets the content of the answer. An answer handed back to the device is what the device sent. The answer should consist of the repository's classes throughout.", "quantifier": "all messages of any nesting up to Python's recursion limit, all classes known to both packages with the same fields, all devices (any function, also one that raises)", "why_tests_cant": "tests use the emulated device, which shares the classes; the conversion needs the other library", "anchors": ["monero_glue/protocol_base/messages.py: bytes_fix, MessageConverter", "monero_glue/trezor/manager.py: Trezor, TrezorSession"]}
{"id": "C105", "title": "A multi-exponentiation evaluates to the sum of the multiples, however its pairs are supplied", "statement": "A holder of scalars and points evaluates to the encoded sum of the multiples, whether the pairs come from lists, from functions, one by one or sequentially, where a scalar alone takes the next point; a holder merged of several has the pairs of its parts in order.", "quantifier": "all lists of scalars of 32 bytes and encoded points of the curve, all functions supplying them, all sequences of calls, all partitions", "why_tests_cant": "sums of arbitrary length over all points; only the holder used by the verifier is exercised", "anchors": ["monero_glue/xmr/bulletproof.py: MultiExpEval, MultiExp, MultiExpSequential, MergedMultiExp"]}
{"id": "C106", "title": "Editing the extra field changes the fields asked for and no others", "statement": "Adding a transaction key, additional keys or a nonce to an extra field appends exactly that field to the fields it holds; removing the fields of a kind leaves the others with their content and order; bytes that are no extra field are refused; a search by kind and number finds that field; a payment id put into a nonce is read back under its own kind only.", "quantifier": "all extra fields, of any number of fields in any order; all keys; all nonces; all payment ids", "why_tests_cant": "the fields are of variable length and appended as bytes: a wrong length shifts everything after it", "anchors": ["monero_glue/xmr/sub/tsx_helper.py: remove_field_from_tx_extra, add_extra_nonce_to_tx_extra, add_tx_pub_key_to_extra, add_additional_tx_pub_keys_to_extra, find_tx_extra_field_by_type, has_payment_id, has_encrypted_payment_id, set_payment_id_to_tx_extra_nonce"]}
{"id": "C107", "title": "Signing and key image synchronisation on one device do not disturb each other", "statement": "A device that gets signing messages, key image messages and requests for the view key, in any order and from any number of hosts, answers the signing messages as if only they had been sent, and the key image messages as if only they had been sent; the guarantees of both protocols hold for it. A host that starts signing gets the same transaction whatever was asked before. The view key is given to a host of the device's network.", "quantifier": "all sequences of requests of all kinds, from any state; all environments, randomness and answers of the user", "why_tests_cant": "interleavings of two protocols of unbounded length", "anchors": ["monero_glue/hwtoken/token.py: TokenLite, get_view_key, tsx_sign, key_image_sync"]}
{"id": "C108", "title": "Commitments, range proofs and ring signatures do not reveal the secret", "statement": "A commitment fits every amount with exactly one mask. A Borromean range proof that is accepted (and any the prover publishes) could have been made for every amount below 2^64, each with exactly one choice of the random scalars, so it says nothing about the amount. For every position of a ring and secrets that open it, the MLSAG signatures the signer can produce are exactly those the verifier accepts for the same key images, each from exactly one choice of random scalars, so beyond the key images a signature says nothing about which member signed.", "quantifier": "every hash, message, ring, position, amount, accepted proof and choice of random scalars", "why_tests_cant": "a test sees single transcripts; hiding is a statement about the number of ways to reach each transcript", "anchors": ["monero_glue/xmr/mlsag2.py: gen_borromean, gen_mlsag_ext, ver_mlsag_ext", "monero_glue/xmr/ring_ct.py: prove_range_orig, ver_range", "monero_glue/xmr/crypto.py: gen_c"]}
{"id": "C109", "title": "A signature only ever pays what the user confirmed", "statement": "Whatever messages a host sends and in whatever order, as long as it cannot forge the device's tags: every signature the device hands out is over the message of one transaction, which has exactly one output for each destination the user confirmed, with its amount, the confirmed fee and unlock time, and nothing else; the registered inputs hold exactly these amounts; the signature fits no other transaction unless the two exhibit a hash collision; and the owner of every confirmed destination recognises their output, its amount and its mask with a public key of the transaction.", "quantifier": "every host, order of messages, randomness, user decision, set of destinations and every other transaction", "why_tests_cant": "the adversary is an arbitrary program; a test plays a few scripts", "anchors": ["monero_glue/protocol/tsx_sign_builder.py: init_transaction, check_change, set_out1, _set_out1_derivation, all_out1_set, sign_input", "monero_glue/hwtoken/token.py: tsx_sign"]}
{"id": "C110", "title": "CLSAG and key image signatures hide the signer", "statement": "For every ring of decodable members, message, pseudo output and position whose secrets open the member there, the CLSAG signatures the signer can write are exactly those the verifier accepts with the same key image and mask image, and each is written for exactly one choice of the signer's random scalars; so what is published depends on position, secret key, mask and amount only through the two images. In particular secrets for two different amounts behind the same commitments lead to the same signatures equally often. The same holds for the ring signatures with a key image, apart from those containing a zero scalar, which the checker refuses.", "quantifier": "every hash function, message, ring of any size, position, secrets, amounts, signature and choice of random scalars", "why_tests_cant": "the claim compares the whole sets of random choices behind a signature for all positions and amounts; a test sees one signature at a time and cannot tell that it could have come from another position", "anchors": ["monero_glue/xmr/mlsag2.py: generate_clsag_simple, _generate_clsag, verify_clsag", "monero_glue/xmr/ring_ct.py: generate_ring_signature, check_ring_singature"]}
{"id": "C111", "title": "Bulletproofs hide the amounts when the blinding is random", "statement": "For any two lists of the same number of amounts, at most 32 and each below 2^64, and for any Bulletproof whatsoever together with the commitments in it, exactly as many choices of masks and blinding scalars lead the prover to this proof for the first list as for the second. So whatever is computed from the returned proof, or from a failure of the prover, has the same probability for all amounts when the scalars are drawn uniformly. (That the code takes the blinding scalars from constant seeds, which makes the amounts testable, is C45.)", "quantifier": "every hash function, every two lists of amounts, every proof and every test on what the prover returns, over all choices of the random scalars", "why_tests_cant": "the claim compares the numbers of random choices behind each of the possible proofs, for all amounts; a test draws a handful of proofs", "anchors": ["monero_glue/xmr/bulletproof.py: BulletProofBuilder.prove_batch", "monero_glue/xmr/ring_ct.py: prove_range_bp"]}
{"id": "C112", "title": "The tool that rewrites unsigned transactions keeps amounts and ownership", "statement": "An unsigned transaction rewritten for another wallet, with a different number of inputs or outputs, spends and pays the same totals as before (so the fee is the same), has the number of inputs and outputs asked for, and all its inputs belong to the new wallet: its keys find the secret of each one-time key. Splitting an input divides its amount and gives every part a commitment to its share. The change output still exists, at the new wallet's account and with the declared amount.", "quantifier": "every hash function, every two wallets, all unsigned transactions, all command line arguments and all random draws", "why_tests_cant": "the random draws and shuffles and the positions of the change, the counts and the amounts have to be considered together; the existing runs use a few fixed files", "anchors": ["monero_poc/tools/test_gen.py: TestGen.rekey_unsigned, rekey_input, amplify_inputs, adjust_change, reduce_outs, amplify_outs, shuffle_outs, subadress_outs", "monero_glue/xmr/sub/addr.py: get_change_addr_idx"]}
{"id": "C113", "title": "No two outputs share a one-time key or an amount key", "statement": "Of two outputs with the same one-time key only one can ever be spent. Two outputs of one transaction to the same address never have the same one-time key, and no two outputs of one transaction have the same amount key; two payments to the same address in different transactions, of the same or of different senders, and two change outputs of a wallet in different transactions, never have the same one-time key. Whenever it happens, the two outputs show two different strings with the same hash, or, in different transactions, are at the same position with the same secret random scalar. (The view key of the address is not a point of small order; for such an address, which the device accepts, the keys repeat.)", "quantifier": "every hash function, all lists of destinations, all wallets, all random draws, all pairs of outputs in one or two transactions", "why_tests_cant": "a repetition would have to be looked for among all pairs of outputs of all transactions; a test sees a few outputs, which differ by chance", "anchors": ["monero_glue/protocol/tsx_sign_builder.py: _s6_compute_tx_keys, _s6_set_out_derivation, _s6_set_out_additional_keys, gen_r", "monero_glue/xmr/core/ec_py.py: generate_key_derivation, derivation_to_scalar, derive_public_key", "monero_glue/xmr/monero.py: generate_key_derivation"]}
{"id": "C114", "title": "All sub-addresses of a wallet are different", "statement": "Different account and index numbers below 2^32 give sub-addresses with different spend keys, different from the main address and from those of a wallet with the same spend key and another view key; and a wallet or device that entered a range of sub-addresses into its table and looks up one of them finds its own account and index. Whenever this fails, the two strings that were hashed are different and have the same hash, or one has hash 0.", "quantifier": "every hash function, all keys, all pairs of account and index numbers, all ranges of precomputed sub-addresses", "why_tests_cant": "there are 2^64 sub-addresses per wallet; tests compute a handful and these differ by chance", "anchors": ["monero_glue/xmr/monero.py: get_subaddress_secret_key, get_subaddress_spend_public_key, generate_sub_address_keys, compute_subaddresses", "monero_glue/xmr/core/ec_py.py: get_subaddress_secret_key"]}
{"id": "C115", "title": "Replacing something after confirmation takes a forged tag or a collision of named strings", "statement": "For any hash and tag functions and any host: the tags of a signing session are exactly the tags, under one secret made from the confirmed transaction data and the device's random scalars, of the confirmed destinations, the registered inputs, their pseudo outputs and the outputs. A destination accepted as output i is the confirmed destination i, a prefix input or a signed input with its source entry is the registered one, and the pseudo output used for a signature is the one made for that input (or computed by the device) - or the host presented a correct tag for a string the device never tagged. In that case the tag was never issued in the session (a forgery), or the device issued it for another item, and the two items give a collision: of the two buffers hashed into keys, of the two serialised strings, or of the inputs of the tag function. Consequently a signature pays what the user confirmed unless one of the destinations presented is such a forgery or collision. Likewise, in a completed session whose permutation names no position twice the masks of the pseudo outputs add up to those of the outputs and the commitments balance, unless a signing request contains such a forgery or collision or a sealed mask that opens under the key of its position and is not the one sealed there. With functions that never collide and a host that only replays issued tags neither is possible.", "quantifier": "all hash and tag functions, hosts, message sequences, sessions and positions", "why_tests_cant": "tests run with real hash functions and an honest host; they cannot show that every possible substitution yields a forgery or a collision", "anchors": ["monero_glue/protocol/tsx_sign_builder.py: gen_hmac_vini, gen_hmac_vouti, gen_hmac_tsxdest, hmac_key_txin, hmac_key_txin_comm, hmac_key_txdst, hmac_key_txout, compute_sec_keys, input_vini, _set_out1, sign_input"]}
{"id": "C116", "title": "RingCT helpers give back what was put in", "statement": "The helper that proves the range of one amount returns a commitment, a mask and a proof that belong together: the mask is the requested one, the commitment is that mask times the base point plus the amount times H, and the proof verifies. An amount hidden for a receiver's public key is returned by decoding with the receiver's secret key, in both encodings. Decoding an output returns an amount only if it opens the commitment of the output.", "quantifier": "all amounts, masks, keys, random scalars, hash functions, commitments and both amount encodings", "why_tests_cant": "a test that encodes and decodes with the same derivation never reaches the branch in which the receiver computes the shared point, and a test that decodes honest outputs never sees a mismatching commitment; whether the exceptional branch can ever succeed is a statement about all curve points", "anchors": ["monero_glue/xmr/ring_ct.py: prove_range_bp, ecdh_encode, ecdh_decode, ecdh_encdec, decode_rct", "monero_glue/xmr/core/ec_py.py: EdPoint", "monero_glue/xmr/monero.py: commitment_mask, ecdh_hash"]}
{"id": "C117", "title": "Integrated addresses are announced for the outputs that pay them", "statement": "The list of outputs paid through an integrated address, which the host sends to the device with the transaction, names exactly the outputs that pay one of the integrated destinations the caller gave, each once and in order. Stripping a source entry leaves the real ring member, the positions and the number of members as they were.", "quantifier": "all lists of outputs and destinations, with any repetitions, and all rings and positions of the real member", "why_tests_cant": "a handful of test transactions has one integrated destination; repeated and mixed payments to the same wallet are what decides whether an entry is listed once", "anchors": ["monero_glue/agent/agent_lite.py: Agent._get_integrated_idx, Agent._strip_sources", "monero_glue/xmr/sub/addr.py: addr_eq"]}
{"id": "C118", "title": "A dictionary becomes the message it spells", "statement": "Converting a dictionary to a message gives the message whose fields the dictionary names: missing and empty entries are unset fields, bytes may be given as hex text, nested dictionaries become nested messages, other entries are ignored. What is accepted fits the class of the message, so it can be written.", "quantifier": "all message classes, messages of any nesting within the recursion limit, and dictionaries in any order with any further entries", "why_tests_cant": "conversion is recursive over arbitrary classes; tests convert single messages of a fixed class", "anchors": ["monero_glue/protobuf.py: dict_to_proto, value_to_proto, MessageType.__init__"]}
{"id": "C119", "title": "Printed credentials and addresses belong together", "statement": "The credential generator always prints an address of the network asked for and two private keys which, read back, are the keys of the public keys in that address; two runs with the same address print the same keys. The seed tool prints private keys, public keys and the three addresses of one wallet, and a listing of its sub-addresses with one line for every account and index below the limits except the main address, on the networks asked for; each line is a sub-address of that network for these numbers, and two lines with the same text need a coincidence of the hash function at two named strings.", "quantifier": "all random numbers, keys, networks, flags, limits up to 2^32 and hash functions with at least four bytes", "why_tests_cant": "a printed backup is checked by eye or by restoring one wallet; that no other wallet's address is printed beside it concerns all keys and indices", "anchors": ["monero_poc/generate_creds.py: main", "monero_glue/xmr/sub/creds.py: AccountCreds.new_wallet", "monero_poc/seed.py: main_async, print_sub_addresses, gen_sub_address"]}
{"id": "C120", "title": "A range proof is the same proof in every form", "statement": "Whatever options the range prover is called with (memory optimised or not, decoded, as one string, with or without the C implementation), the result has the form asked for, the verifier accepts what it reads from it for the returned commitment, the commitment is to the amount under the returned mask, and neither commitment, mask nor encoded proof depends on the options. Amounts of 2^64 or more are refused.", "quantifier": "all amounts, masks, random scalars, hash functions, option combinations and C implementations", "why_tests_cant": "eight combinations of options times all amounts and masks; tests call three combinations on two amounts", "anchors": ["monero_glue/xmr/ring_ct.py: prove_range", "monero_glue/xmr/core/ec_trezor.py: prove_range", "monero_glue/xmr/sub/recode_ext.py: recode_rangesig, flatten_rsig, inflate_rsig"]}
{"id": "C121", "title": "Trace addresses are resolved to the function that contains them", "statement": "The trace reader resolves every address of a line to the symbol of the function that contains it: the last symbol that the map files define at the greatest symbol address not after it. A number is printed without a question mark exactly if a symbol is defined at this address, and numbers below 32 are not resolved.", "quantifier": "all lists of symbol definitions in the map files and all addresses", "why_tests_cant": "the result depends on how a binary search ends for addresses between, before and behind all symbols, for every number of symbols", "anchors": ["monero_poc/tools/log_aux_qemu.py: binary_search, Mapper.resolve, Mapper.resolve_ish, QEMULogAnalyzer.process"]}
{"id": "C122", "title": "Entropy downloaded from the device", "statement": "The entropy command writes to the file exactly the bytes the device answered, in order and completely, and stops at the first answer with which the file has at least the size asked for. Every request asks for ten kilobytes. If a call fails, the file holds the answers before it. A device that always answers with at least one byte lets the command end.", "quantifier": "every size, every former content of the file, every sequence of answers and failures of the device", "why_tests_cant": "tests have one device with full answers; short, empty and failing answers at each point form an infinite family", "anchors": ["monero_poc/agent.py: get_entropy, do_get_entropy"]}
{"id": "C123", "title": "Credentials of the wallet and daemon clients", "statement": "After credentials were set, every request carries the user and the password set, with the method and parameters given; without credentials it carries none, and unusable credentials are refused when they are set.", "quantifier": "every credentials given as pair, text or other object, every method and parameters", "why_tests_cant": "user names, passwords and where colons stand in them form an infinite family", "anchors": ["monero_glue/xmr/wallet_rpc.py: set_creds, request", "monero_glue/xmr/daemon_rpc.py: set_creds, request"]}
{"id": "C124", "title": "The agent speaks to the device that was named", "statement": "After every history of connections, switches, reconnections and failures the agent uses the network that was set last; a switch that goes well opens the device the line names, a failing one leaves the connection as it was, and reconnecting comes back to the same device.", "quantifier": "every history of commands, every set of connected devices, every choice of the user and every failure to open a device", "why_tests_cant": "histories with failures and changing devices form an infinite family", "anchors": ["monero_poc/agent.py: do_switch, do_reconnect, connect, choose_trezor, set_network_type"]}
{"id": "C125", "title": "Addresses for users, random wallets", "statement": "The address created for a user is the one of the ordinary BIP32 child with the user's number: it can be computed from public data, it comes without a private key, numbers outside the range are refused and different users get different keys unless the hash has an explicit collision. Entropy of the user is added to that of a random wallet.", "quantifier": "every seed, path, network and user number", "why_tests_cant": "numbers, seeds and paths form an infinite family, and that keys differ is a statement about all pairs", "anchors": ["monero_glue/misc/bip/bip32.py: create_new_address_for_user, new_random_wallet"]}
{"id": "C126", "title": "Vector folds in memory", "statement": "Folding a vector of points or scalars in place, into another vector from an offset on, or with the upper half taken from a second vector gives the element-wise fold of the two halves and changes nothing else; the one-directional variant gives the same bytes and exceptions; the table of powers holds the powers modulo the group order; the weighted sum of points uses the given scalars.", "quantifier": "every vector length, element operation, scalars, destination vector, offset and second vector", "why_tests_cant": "the loops overwrite the vector they read: whether a later read sees an overwritten element depends on length, destination and offset, and tests use the in-place case with few sizes", "anchors": ["monero_glue/xmr/bulletproof.py: _hadamard_fold, _hadamard_fold_linear, _scalar_fold, _vector_powers, _vector_sum_aA"]}
{"id": "C127", "title": "Functions that build vectors fill them", "statement": "Constant vectors, sums, differences and multiples of vectors, the table of z^(2+j) 2^c, and the tables of generators contain at every index the value the function computes for it, for every size; the table and the on-demand version of z^(2+j) 2^c agree.", "quantifier": "every vector, scalar and size, in particular sizes above and below the size from which vectors are stored in chunks", "why_tests_cant": "whether an assignment reaches the vector or only a copy depends on the size of the vector; the precomputed tables hide the functions that build them", "anchors": ["monero_glue/xmr/bulletproof.py: _vector_dup, _vector_add, _vector_subtract, _vector_scalar, _vector_scalar2, _vector_sum, _vector_z_two, _vector_z_two_i, KeyVZtwo, _init_exponents, KeyV.__getitem__"]}
{"id": "C128", "title": "Messages are independent values", "statement": "A protocol message behaves as a value of its own: a field that was not given has its default, an empty list for a repeated one; appending to, extending or assigning a field of one message is never seen in another, also not in a message it was copied from.", "quantifier": "every program that creates messages with any fields, assigns, extends, adds to and copies them in any order, with exceptions caught", "why_tests_cant": "sharing of default lists or copied lists shows only after later mutations of another object", "anchors": ["monero_glue/protobuf.py: MessageType.__init__, _fill_missing, _extenditem, _additem, CopyFrom"]}
{"id": "C129", "title": "Views of vectors", "statement": "A slice of a vector, or of a slice, shows exactly its part: index i is the i-th element of the part, negative indices count from its end, other indices raise; after any sequence of writes through any views every view shows the last value written. A wrapped vector passes writes on, and the extended table of powers of two contains the powers.", "quantifier": "every nesting of slices, vector contents, index and sequence of writes through overlapping views", "why_tests_cant": "the prover works on many overlapping slices of the same memory; sharing shows only for particular sequences of writes", "anchors": ["monero_glue/xmr/bulletproof.py: KeyVSliced, KeyVBase.slice_view, KeyVBase.idxize, KeyVWrapped, Bulletproof._two_aux"]}
{"id": "C130", "title": "A set of transactions is signed one by one", "statement": "Signing a set of unsigned transactions returns one serialized transaction for every request, in order; each is right for its own request and passes the network's checks, each was confirmed by the user in a step of its own, no session is left on the device, and honest requests are all signed. Transactions of requests without a common source have no key image in common. What was signed before a refusal is not lost, and a set never spends an output twice.", "quantifier": "every number of requests, all requests, device randomness, user decisions and states of the device at the start", "why_tests_cant": "a test signs one or two transactions that are confirmed; sets of any size with refusals or overlapping sources need an induction over the sessions", "anchors": ["monero_glue/agent/agent_lite.py: Agent.sign_unsigned_tx, Agent.sign_tx, Agent.serialized_tx, Agent.sign_transaction_data"]}
{"id": "C131", "title": "Messages are written as encoded, and counted as written", "statement": "Writing a message appends its encoding to the stream, whether bytes values are given at once or in parts; the counter used for the lengths of nested messages counts exactly the bytes that are written, at every depth; a message written in parts is read back with the parts put together; the size a message reports is the length of its encoding.", "quantifier": "every message class, message, nesting depth, division of values into parts and previous content of the stream", "why_tests_cant": "lengths of nested messages come from a second run with another writer; agreement at every depth needs an induction", "anchors": ["monero_glue/protobuf.py: dump_message, dump_uvarint, CountingWriter, _count_bytes_list, MessageType.ByteSize"]}
{"id": "C132", "title": "Scalar and point objects can be reused as destinations", "statement": "Every sequence of arithmetic calls on scalar and point objects, with new objects or existing ones as destinations and the same object allowed as destination and operand, computes what the same sequence computes on values of the scalar field and of the curve group: only the destination changes, scalars stay reduced, equality of scalars is equality of values and encodings of points agree exactly for equal points.", "quantifier": "every program over the arithmetic functions, every choice of destinations and operands, every memory of objects", "why_tests_cant": "aliasing bugs depend on which objects coincide and on the history of writes; the programs are unbounded", "anchors": ["monero_glue/xmr/core/ec_py.py: EdScalar, EdPoint, sc_init_into, sc_copy, sc_add_into, sc_sub_into, sc_mul_into, sc_mulsub_into, sc_muladd_into, sc_inv_into, scalarmult_base_into, scalarmult_into, point_add_into, point_sub_into, point_double_into, point_mul8_into, add_keys2_into, add_keys3_into, identity_into, decodeint_into_noreduce, invert_ext"]}
