# Formal model of monero-agent: design

Source: `/repo` (Python, pinned commit). All paths below are relative to `/repo/monero_glue`.
The code was read as text and never run.

## Layout

| folder | content |
| --- | --- |
| `lean/Verif/Model/*` | definitions mirroring the Python functions branch by branch; each cites file and lines |
| `lean/Verif/Spec/*` | small independent specifications used in the property statements |
| `lean/Verif/Lemmas/*` | helper lemmas |
| `lean/Verif/Props/*` | the property theorems, named `Cnn_…`, each with a non-vacuity `example` |
| `properties.jsonl` | the properties in English |
| `MANIFEST.json` | property → theorem names, status and what is missing |
| `seeded/LOG.jsonl` | seeded-bug experiments |

A theorem called `Cnn_false…` is the negation of the property (or of a natural strengthening of it) for the code as it is, with a concrete
witness. A theorem called `Cnn_…_partial` proves the property under a restriction which the manifest spells out.

## Modelling conventions

* Python exceptions are values (`Except`/`Option`); a function that mutates `self` returns the new value. Where a caller can go on with an
  object after an exception, the state at the time of the exception is returned as well (`Lite`, `KeyV`).
* Python `int` is `Int`/`Nat` (unbounded, as in Python). `bytes` is `List UInt8`. `%` and `//` with a positive right argument are `Int.emod` and
  `Int.ediv`.
* Loops become folds or structural recursion. `while` loops without an obvious measure get fuel, and a theorem says that the fuel suffices
  (C55, C33, C34, C51, the ring loops).
* Randomness is an argument: theorems hold for every value the generator may return.
* Hashes, MACs, ciphers and the external serialization library are parameters. What is assumed of them is a hypothesis of the theorem that
  needs it, never an axiom. The built-in Keccak is modelled and proved to be standard Keccak (C62); all other theorems hold for an arbitrary
  hash function and so in particular for this one.
* The signer (`Model/Signer`) works over an arbitrary commutative ring of scalars and module of points with the operations it needs as an
  environment; keys, signatures and range proofs (`Model/Key`, `Sig`, `Bulletproof`, `Lite`) work with the concrete curve code
  (`Model/Ed25519`), for which the group law, the group order and the encodings are proved (C49, C50, C58).

## Property by property: what is modelled and how it is proved

| id | what is modelled | how it is proved |
| --- | --- | --- |
| C01–C04, C09, C10 | the whole device side of signing, as a transition `Device → Msg → Device × Answer` | the protocol as an independent automaton on logs (`Spec/Signer`); one invariant linking builder and log, by induction over reachable states; witnesses for C09, C10 |
| C05, C06 | the same machine with abstract MAC | invariant linking counters to issued tags; MAC binding as hypothesis |
| C07 | amounts in the machine | invariant "summary = sum of processed", fee check |
| C08 | masks over a commutative ring, commitments in a module | invariant over the mask lists, algebra |
| C11 | `check_change` | case analysis against the wallet's address |
| C12 | saving and restoring as attribute dictionaries | bisimulation: the suspended device gives the same answers for every message list |
| C13 | construction of the key derivation buffers | injectivity of the buffers |
| C14, C56, C57 | `PreMlsagHasher`, prefix hashing, `sign_input` | transcript equality by induction over lists; invariant of the session |
| C15, C16 | key image synchronisation, device and host | invariant over histories; C16 negation for every multiple of ten |
| C17, C18 | batch sizes of the host, batch counting of the device | induction on the number of outputs and on layouts |
| C19–C22 | protobuf readers and writers over byte lists | round trips by induction over schemas and values; witnesses for C22 |
| C23, C24, C27 | both base58 codes | positional-number library; witness for C24 |
| C25, C26 | address encoding | round trip on top of C19/C23; witness for C26 |
| C28–C30 | mnemonic words with the actual word list, 11-bit packing | modular arithmetic; the word list facts are finite and kernel-checked |
| C31 | memoizer as a cache keyed by what the Python key keeps, `get_child` | refinement for positional calls, witness for keyword calls |
| C32–C34 | offsets, permutations, chunking | list induction; termination of the swap loop by cycle length |
| C35 | integer and limb codecs | positional arithmetic |
| C36, C37 | extra field, payment ids, ECDH | round trips over an abstract hash |
| C38, C39 | addresses, sub-addresses, one-time keys, key images on the concrete curve | the sender's and the recipient's computation represent the same group element |
| C40 | Schnorr and ring signatures | exact acceptance condition (`Spec/Sig`), completeness |
| C41–C43 | Borromean, MLSAG, CLSAG | the verifier recomputes the prover's challenges; ring-loop invariant |
| C44 | Bulletproof prover and verifier | the two Bulletproof equations (`Spec/Bulletproof`); inner-product induction over the rounds |
| C45 | the blinding source of the prover | negation: closed formula for the mask from public data |
| C46, C47 | the vector objects as state machines | refinement to arrays over all histories; witnesses for the failing ones |
| C48 | writer of range proofs and the wire format | round trip |
| C49, C50, C58–C61 | formulas, inversion, encodings, hash to point, division by eight over `ZMod q` | Pratt certificates, polynomial identities, count of the curve's points |
| C51, C62 | the Keccak code | buffering invariant; lanes related to the bit-level specification (`Spec/Keccak`) |
| C52, C53, C63–C68, C70 | the lite protocol as commands on a state | forward runs and inversion of successful runs; induction over sessions; witnesses for the refuted ones |
| C54, C69 | encrypted files with abstract ciphers | round trips, exact acceptance, witnesses |
| C55 | height search | bracketing invariant, termination by halving |
| C71 | the counter-mode generator `PRNG` over an abstract hash | induction on reads and on histories against a stream specification; witness for short reads |
| C72 | host loop `sign_transaction_data` against the modelled device, message by message | forward runs with explicit device states, glued phase by phase; inversion along the host's loops for the requests that cannot be signed |
| C73 | same run, with the owners' view of the outputs | classification of destinations by induction; algebra of the shared secret; witness for a foreign change address |
| C74 | same run, no assumption on the request | inversion of a finished run to the conditions of the forward run, after replacing the signature prover by a total one; computed witness for client version 0 |
| C75 | `Model/Real.lean`: the signer's parameters filled with the modelled curve, keys, ring signatures, range proofs and wire formats; a byte-level verifier in `Spec/Real.lean` | the assumptions of C72 and C74 are proved for these parts; completeness of signatures and proofs turns the abstract result into accepted bytes |
| C76 | same, with a second wallet | completeness of the output search and of the amount encryption, composed with C74 |
| C77 | `KiSync` with the key image export of `Sig` in the place of its parameter, the host's reading of the extra field | inversion of the import, soundness of the export, uniqueness of the secret key; composed with C74 |
| C78 | `Model/Offload.lean`: device and host of the offloaded prover with their saved states, message by message | vectors as encodings of functions to the scalar field and the group; invariants over chunks for each phase; the loop as an equation with the rounds of the prover in memory |
| C79 | `Model/Hd.lean` over `Model/Secp.lean` (the ecdsa package); BIP32 in `Spec/Hd.lean` over Mathlib's Weierstrass group | the affine formulas are Mathlib's group law, order of the generator by kernel computation and a primality certificate; an invariant between wallet nodes and nodes of BIP32, induction over the path; the path text is parsed back |
| C80 | same | public derivation commutes with private derivation; inversion of `get_child` without private key |
| C81 | same, and Base58 of C27 | square roots modulo p for compressed points, lengths of Base58 texts, inversion of `deserialize` |
| C82 | same | C27, leading bytes |
| C83 | same | arithmetic modulo the order |
| C84 | `Model/Seed.lean` over `Model/Hd.lean`, `Model/Mnemonic.lean`, `Model/Key.lean`; words as texts | C79 for the path, an invariant between ed25519 nodes and SLIP-0010, C28 for the words; the word lists are checked as numbers, spellings by lemmas about split, strip and lower |
| C85 | same, `createWallet` and the account file | C84 and C30; a concrete wallet with different keys |
| C86 | `Model/TxBuilder.lean` over `Model/Key.lean` and the host of `Model/Agent.lean` | points as group elements give that each self check of `gen_input` passes and that the source is owned (C38, C39); then C75 for the signed transaction. The wrong table contradicts C74 |
| C87 | the last answer of the device is exposed by `signAll` in `Model/Agent.lean`; `Model/TxKeys.lean` for `compute_tx_key` and the host's later request | the facts about every successful run (C74) extended by the private keys: main key, additional keys, and the derivation used for each output |
| C88 | `Model/TxKeys.lean` (`liveRefresh`) over the ring signature of `Model/Sig.lean` | C40's acceptance condition for a ring of one; special soundness in the subgroup of prime order; C77's export |
| C89 | `Model/Amount.lean`: `float(text)`, binary64 rounding to nearest even over the rationals, `int`, `'%.8f'` | error of one rounding, of the product by 10^12 and of the floor; exactness when the significand fits; witnesses evaluated by the kernel |
| C90 | `Model/Command.lean`: the line parsers, the parameters of the requests, and the commands as lists of effects (question, request, signature, submission) in a world of arbitrary answers | a printer for documented lines (`Spec/Command.lean`) and parse-after-print; decomposition of every accepted line; the shape of every list of effects that contains a submission |
| C91 | `Model/SignedSet.lean`: the loop of `sign` over the transactions of a set on top of `Agent.signTransaction`, with the list of key images as state | the host's record of a source holds its key image (induction over the input loop); the permutation the host sorts with puts it at the place of the input; induction over the transactions |
| C92 | `Model/Account.lean`: opening from passed credentials, from a device and from a file, saving, checking against the device; concrete curve and address codecs | decoding after encoding of points and addresses; `set_address` is idempotent and makes the check that follows it pass |
| C93 | `Model/Prompt.lean`: the request thread and the terminal as programs of atomic steps over shared fields, run under an arbitrary schedule; a log of what can be seen | an invariant for each kind of request that ties the places of both programs to the log, kept by every step; the lost wake-up by an invariant that no step leaves |
| C94 | `Model/Start.lean`: `open_account` with everything it calls, over a disk (account file, keys files), the device's answer and a scripted dialogue; on top of `Account` and `KeysFile` | case analysis of the start; C69 and C92 for the files it writes; induction over the dialogue |
| C95 | `Model/WalletProc.lean`: the command line of the wallet process, what it is fed, how its output is cut into lines. Specification: how a POSIX shell splits a simple command into words; the lines of a text | induction over the quoted text; over the rounds; over the reads, with the begun line of each output as invariant |
| C96 | `Model/Scan.lean`: the scan of a transaction for the outputs of a wallet, on top of the key model. Specification: whose output it is, what opens a commitment, in affine curve arithmetic | invariant of the loop over the outputs; for the agent's transactions the outputs of C74 are put through the scan one by one |
| C97 | `Model/EdDsa.lean`: keys, signing and checking of ed25519_2.py and ed25519.py over any 64-byte hash. Specification: `Spec/EdDsa.lean`, the scalar and the equation of RFC 8032 | both sides of the equation as points of the group; extraction of the secret with the inverse modulo the prime order |
| C98 | `Model/EdBack.lean`: ed25519.py and ed25519ietf.py. Specification: `Spec/Curve.lean` | both inversions are the field inverse, so coordinates agree as field elements; induction over the bits of the scalar |
| C99 | the verifiers of `Model/Sig.lean`. Specification: `Spec/Sound.lean`: two hashes that agree on 32-byte strings, secrets up to order eight | the exact characterizations of C40-C43 for both transcripts, equal bytes give equal points (C58), then the difference of the challenges is invertible modulo the prime order |
| C100 | the equations of `Spec/Bulletproof.lean`, to which C44_accept_iff reduces the verifier. Specification: `Spec/BpSound.lean`: combinations of generators as a free module, the tree of challenges, what being in range means | polynomials with more zeros than their degree vanish, for the rounds (four squares), the inner product (two), the constant term (three), the commitments (in z) and the bits (in y); the converse by the honest prover without blinding |
| C101 | `Model/Messages.lean` (the table of message classes, generated from monero_glue/messages), `Model/Transport.lean` (host call, server handlers, device as any function); `Model/SignerPb.lean` gives C05 and C06 the real bytes of source and destination entries. Specification: `Spec/Transport.lean` | table facts by computation, round trip from C21 for the real schema, sessions by induction; for C05 the fields of an entry are peeled off one by one |
| C102 | `Model/Asnl.lean`; specification and forger in `Spec/Asnl.lean` | acceptance translated to an equation in the group; completeness by induction over the rows; the forger is an explicit program whose output is shown to be accepted |
| C103 | `Model/Euclid.lean`; specification in `Spec/Euclid.lean` (inverse, coprime) | loop invariants: both remainders are combinations of the inputs; for the recursive one also the determinant, which excludes a zero remainder being taken for "no answer" |
| C104 | `Model/MsgConv.lean`; specification `relabel` in `Spec/MsgConv.lean` | induction over the nesting; loops over fields by a prefix invariant |
| C105 | `Model/MultiExp.lean`; specification `Denotes`, `total` in `Spec/MultiExp.lean` | accumulator represents the partial sum; induction over the calls |
| C106 | `Model/ExtraEdit.lean` over the reader of `Model/Key.lean` | reading is stable under appended bytes; induction over the fields |
| C107 | `Model/Token.lean`: the whole device over the models of signing and key image synchronisation | induction over the requests, relating states by their projections |
| C108 | `Model/Sig` (no new model); `Spec/Hiding` defines tapes of random scalars and what is published | the discrete logarithm of every point of the subgroup exists and is unique (order of the base point), an answer and a challenge determine the nonce; the signer's loop follows any closed chain of challenges |
| C109 | `Model/Signer` (no new model); `Spec/Pays` says what a transaction pays and how an owner recognises an output | invariant of the session at the closing message, C06 for the destinations, C07 for the amounts; derivation of the output key by cases on change, sub-address and additional keys |
| C110 | the models of C40 and C43; the random scalars of the signer as a list, with the nonce at the signer's position | a closed chain of challenges is followed by the signer that takes the nonce answering it; the last answer determines the nonce once the challenges are read off the published scalars |
| C111 | the prover of C44; masks, alpha, rho, tau1, tau2 and the two blinding vectors as one finite type | for a fixed proof the challenges are fixed; an injection moves the blinding vectors by the difference of the bits over the challenge x and the other scalars by logarithms, so that the commitments, the vectors at x, taux and mu stay what they were |
| C112 | the stages of the tool as functions, random draws as parameters | each stage keeps the list of amounts or its sum; the index of the change is an invariant of the stages under the stated conditions; ownership from C39 |
| C113 | the output keys of C38 | equal one-time keys to one spend key mean equal hash scalars (uniqueness of discrete logarithms below l); the hashed strings differ in the position or in the shared point; equal shared points mean equal scalars since 8·V has order l |
| C114 | the sub-address functions of C38 | the hashed string determines key and numbers; equal points mean equal scalars below l; the table by the invariant of C38 |
| C115 | the signer model; `Spec/SignerClash` lists the items of a session and what breaking a tag means | session invariant; case split on the item being one of the session's; explicit collision from two items with one tag; C109's payment theorem with its pinning premise abstracted |
| C116 | `proveRangeOne`, `encdec` with the two kinds of derivation (bytes, curve point), `decodeRct` returning amount and warning | composition with C44 for the proof; group law for the shared point; for the failing branch a bound on the coordinates turns the curve equation into an equation over the integers with the neutral point as only solution |
| C117 | `integratedIdx` as the two nested loops, `strip` as a loop over positions | induction: the number of entries of an output is the number of integrated destinations it pays |
| C118 | `dictToProto` over Python values, with the recursion limit as fuel and `int(text)`, `str(value)` as parameters | mutual induction over messages, values and value lists against the relation `Spells` |
| C119 | `Model/Creds`: the two tools as functions from random numbers or keys to the printed texts, over the models of addresses (C25), keys and hexadecimal texts | `Names` (what the text decodes to, as points of the curve) and `readKey` are the specification; uniqueness from C25, the injective encoding of points and the order of the base point |
| C120 | `Model/RangeOpts`: `prove_range` with its options over the provers of C41; the C function is a parameter | `Form.read` and `Form.fits` are the specification; acceptance from C41, one common encoded proof for all options |
| C121 | `Model/Symbols`: table of symbols, sorted addresses, the loop of the binary search with its termination | `Defined` and `Contains` speak of the definitions only; induction on the width of the interval |
| C122 | `Host.getEntropy` folds the answers of the device | invariant along the answers, generalised over the answers already written |
| C123 | `Host.setCreds`, `Host.request` | induction along the text up to the first colon |
| C124 | `Connect.step`: the fields of the application under the commands | invariant between application and agent along the history |
| C125 | `Hd.Wallet.newAddressForUser`, `Hd.newRandomWallet` on top of `get_child` | against BIP32 (Spec/Hd); distinctness by the order of the generator and the explicit pair of messages |
| C126 | `Bp.foldLoop` over a memory of source and destination, `Bp.foldLinear`, `Bp.vectorPowers`, `Bp.vectorSum` | induction over the loop with the memory split into written, unread and upper parts; refinement to the functional folds of C44 |
| C127 | `Bp.Tbl` with and without chunks, the loops of the table functions | one lemma about loops that write index by index; powers by C126 |
| C128 | `MsgObj.World`: messages with attributes that hold references to lists; `step`, `run` | simulation of a value semantics; invariant: no two attributes share a list |
| C129 | `Bp.View` (nested slices), `View.get`, `View.put`, `View.writes`, `wrappedRead`, `powTwo` | induction on the nesting and on the history; strong induction for the powers |
| C130 | `Agent.signEach`, `signUnsigned`, `signTx` over the complete host and device | induction on the requests with C72, C74, C75; the number of messages grows in every session |
| C131 | `Pb.Out` (counter or stream), `writeMessage`, `varintLoop`, `countParts`, `byteSize` | mutual induction over values, fields and messages: the writer refines the encoding of C21 |
| C132 | `Regs.Mem`, `step`, `run` | simulation: the memory holds the values of `Vals.run`, by induction on the program |

## What is modelled

| model | source |
| --- | --- |
| `Varint`, `Protobuf` | protobuf.py: variable-length integers, zig-zag, readers and writers of messages |
| `Signer`, `SignerState`, `PreMlsag` | protocol/tsx_sign.py, tsx_sign_builder.py, tsx_sign_state.py, tsx_sign_state_holder.py, hwtoken/token.py 112-130, xmr/sub/mlsag_hasher.py, keccak_hasher.py |
| `KiSync` | protocol/key_image_sync.py, hwtoken/token.py 132-154, xmr/key_image.py 48-95, agent/agent_lite.py 777-820 |
| `Batches` | agent/agent_lite.py: range-proof batches of the host and of the device |
| `Offsets`, `Common` | xmr/sub/tsx_helper.py 96-108, xmr/common.py (permutations, chunking) |
| `B58`, `Addr`, `Mnemonic`, `Bip` | misc/b58_mnr.py, misc/b58.py, xmr/sub/addr.py, xmr/core/mnemonic.py, misc/bip (bit packing, child numbers, memoizer) |
| `Ed25519` | xmr/core/backend/ed25519.py, ed25519_2.py, ed25519ietf.py 81-87, xmr/core/ec_py.py, ec_base.py |
| `Keccak` | xmr/core/backend/keccak2.py, xmr/core/ec.py 34-72 |
| `Key` | xmr/monero.py, xmr/core/ec_py.py 826-1075, xmr/sub/tsx_helper.py, the output construction of tsx_sign_builder.py, ecdh of ring_ct.py |
| `Sig` | xmr/crypto.py 69-107, xmr/mlsag2.py, xmr/ring_ct.py (ring signatures, Borromean range proofs), xmr/sub/recode_ext.py |
| `Bulletproof`, `BpTables`, `BpWire`, `KeyV` | xmr/bulletproof.py: in-memory prover, verifier, generators, vector objects; ring_ct.py 39-91; serialization in tsx_sign_builder.py and hwtoken/misc.py |
| `Lite` | protocol_lite/lite.py, consts.py |
| `Enc`, `KeysFile`, `Height` | xmr/enc/*.py, xmr/wallet.py |
| `Prng` | xmr/core/ec.py `PRNG` |
| `Agent` | agent/agent_lite.py `sign_transaction_data` 319-738 |
| `TxWire` | protocol/tsx_sign_builder.py 1645-1667, xmr/sub/recode.py 27-46, agent/agent_lite.py 409, 546, 644: ring signatures, inputs and outputs as bytes |
| `Real` | the external parts of `Signer`, filled with the other models |
| `KiHost` | xmr/key_image.py 17-124, xmr/monero.py 394-417, protocol/key_image_sync.py 53-85, agent/agent_lite.py 777-820: key image import with the modelled cryptography |
| `Offload` | xmr/bulletproof.py 1700-1717, 1790-1875, 2420-3228 (`prove_batch_off`, `prove_batch_off_step` and the phases), xmr/bulletproof_cl.py 53-115, 162-396, 433-524 |
| `Secp` | the ecdsa package as used by misc/bip (not part of the repository): SECP256k1 in affine coordinates |
| `Hd` | misc/bip/bip32.py 34-185, 258-706, 722-734, misc/bip/keys.py, misc/bip/network.py, misc/bip/utils.py |
| `Seed`, `Bip39Words` | xmr/sub/seed.py 33-135, misc/bip/bip39_deriv.py, misc/bip/bip32.py 258-272, the English list of misc/bip/bip39.py, monero_poc/trezor.py 635-705, 730-738 |
| `TxBuilder` | xmr/transaction_builder.py 175-333, 382-406, 531-545 |
| `TxKeys` | hwtoken/misc.py 61-75; agent/agent_lite.py 822-926 (from the answer of the device on) |
| `Amount` | monero_poc/utils/misc.py 132-133, `float` as used in 179-190; xmr/wallet.py 283-289; the number formats of monero_poc/trezor.py 486-510 |
| `Command` | monero_poc/utils/misc.py 32, 136-276; monero_poc/agent.py 296-360, 1177-1383 and the outcomes of 1385-1407; monero_poc/utils/cli.py 69-104. Left out: `parse_sweep_single` (never called), what is printed |
| `SignedSet` | monero_poc/agent.py 1435-1469; monero_glue/xmr/wallet.py 256-280 (sources and selected transfers); `ct.source_permutation`, agent_lite.py 417-426, is recomputed. Left out: files, printing, `store_cdata` (see `TxKeys`) |
| `Account` | monero_poc/agent.py 200-204, 476-490, 683-708, 856-944; monero_poc/utils/misc.py 368-375; monero_glue/xmr/crypto.py 27-33; monero_glue/xmr/enc/chacha_poly.py 20-49. Left out: JSON, `load_params`, prompts |
| `Prompt` | monero_poc/trezor.py 45-101, 260-279, 293-323, 441-456, 461-468, 513-564; monero_poc/utils/misc.py 50-85. Left out: HTTP, the texts of the prompts |
| `Start` | monero_poc/agent.py 51-68, 476-496, 518-528, 601-647, 649-726, 728-854. Left out: printing, the daemon (its answers are inputs), the other attributes of the wallet file |
| `WalletProc` | monero_poc/agent.py 955, 960-979, 994-1081, 1086-1087, monero_poc/utils/misc.py 120-129, 349-365. `shlex.quote`, the same as `shellescape.quote`, is modelled from its documentation. Left out: UTF-8, the parsing of log lines for display, threads, signals, exit codes |
| `Scan` | monero.py 232-327, the loop of monero_glue_test/base_agent_test.py 353-376. Left out: multisig, the extraction of the public keys from the extra field (C36), which appear as decoded points |
| `EdBack` | ed25519.py, ed25519ietf.py 42-145. Left out: messages printed by `sqroot` and `decodepoint` |
| `EdDsa` | ed25519_2.py 219-245, 276-302; ed25519.py 140-158, 192-206 (signing up to the exception of line 155) |
| `Messages` | monero_glue/messages/*.py `get_fields`, MessageType.py: a generated table. Left out: field names; classes using the missing `p.EnumType` are marked as raising |
| `Transport` | monero_poc/utils/trezor_server_proxy.py 34-97, monero_poc/trezor.py 224-393, monero_glue/protocol_base/messages.py 9-25. HTTP and JSON deliver faithfully; the device is any function; a class with an unusable nested class counts as unusable |
| `SignerPb` | monero_glue/protocol/tsx_sign_builder.py 345-387 with the classes of messages. Fields required by the signer are present; multisig_kLRki, original and is_integrated absent |
| `Asnl` | monero_glue/trezor_unused/asnl.py 14-121. Random scalars are arguments; logging left out |
| `Euclid` | monero_glue/xmr/core/ec_py.py 305-326, 348-355, 575-599. Left out: `conv_xy_to_precomp` and `conv_ext_to_proj` (no computation to speak of), `fe_divpowm1` (passes a float exponent, so always raises) |
| `MsgConv` | monero_glue/protocol_base/messages.py 28-115, monero_glue/trezor/manager.py 82-126. The classes of both packages are a parameter. Left out: dictionaries, the change of the caller's message in place, transports |
| `MultiExp` | monero_glue/xmr/bulletproof.py 1437-1606. Left out: iteration, `MergedMultiExp.add` and `MergedMultiExp.eval`, which hands a point where a byte array is expected |
| `ExtraEdit` | monero_glue/xmr/sub/tsx_helper.py 26-58, 87-93, 179-254. Left out: padding, merge-mining and other tags, `encrypt_payment_id_bugbug` |
| `Token` | monero_glue/hwtoken/token.py 22-154. Left out: the unused transaction counter, the error counter, notifications of the interface |
| `TestGen` | monero_poc/tools/test_gen.py 263-641. Left out: files, `describe`, the command line, fields that are copied |
| `RctHelpers` | ring_ct.py 48-60, 431-484, 492-511. Left out: `dest` aliasing the argument; log text |
| `HostAux` | agent_lite.py 273-317, sub/addr.py 159-169. Left out: logging; the device does not read the list |
| `DictProto` | protobuf.py 411-455. Left out: dictionary subclasses and other objects with a `get` method |
| `Creds` | monero_poc/generate_creds.py 40-58, monero_glue/xmr/sub/creds.py 30-48, monero_poc/seed.py 171-173, 188-241. Left out: argument parsing, labels of the lines, lines 175-186 of seed.py (C84). |
| `RangeOpts` | ring_ct.py 202-252, ec_trezor.py 876-895, recode_ext.py 6-72. Left out: the C code itself. |
| `Symbols` | monero_poc/tools/log_aux_qemu.py 45-65, 110-124, 187-202, 246-254. Left out: parsing of map files and lines, the call stack 256-274. |
| `Entropy` | monero_poc/agent.py 498-516; xmr/wallet_rpc.py 29-52, xmr/daemon_rpc.py 41-64. Left out: the log lines, HTTP itself, the binary requests of the daemon client. |
| `Connect` | monero_poc/agent.py 392-415, 451-453, 530-546, 575-599. Left out: patching of the library, printed lines; opening a device succeeds or raises. |
| `UserAddr` | misc/bip/bip32.py 274-283, 772-791. |
| `Fold` | monero_glue/xmr/bulletproof.py 1071-1086, 1116-1137, 1182-1257 as programs over memory. Left out: chunked storage (C47 covers it), garbage collection calls. |
| `VecTables` | monero_glue/xmr/bulletproof.py 423-503 (storage, elements as values), 1296-1375, 1395-1401. Left out: given destination vectors, byte level (Model/KeyV). |
| `MsgObj` | monero_glue/protobuf.py 127-205. Left out: `__eq__`, printing, attributes of sub-messages, lists passed in by the caller and kept by it, `ByteSize` (it never awaits the coroutine and returns 0). |
| `Views` | monero_glue/xmr/bulletproof.py 343-348, 382-383, 660-698, 755-789, 1948-1966. Left out: returned buffers kept by the caller, raw scalars, sizes. |
| `SignSet` | monero_glue/agent/agent_lite.py 203-250. Left out: the external serializer of transactions. |
| `PbWriter` | monero_glue/protobuf.py 61-70, 207-210, 227-234, 299-352, 458-462. Left out: writers that keep the one-byte buffer they are given. |
| `Regs` | monero_glue/xmr/core/ec_py.py 36-165, 268-280, 358-364, 450-465, 498-563, 607-674, 728-739, 944-974. Left out: calls that decode points or draw random scalars, and operands of the wrong type. |

## What is not modelled

* Multisig branches (`kLRki`, `mscout`, `multisig_keys`).
* The offloaded Bulletproof prover (`prove_batch_off`, bulletproof.py 2369-3205, bulletproof_cl.py), the batched multi-exponentiation
  (`MergedMultiExp`) and `prove_batch_`. Soundness and zero knowledge of Bulletproofs and ring signatures: completeness, the exact
  acceptance condition and the concrete leaks are proved, but no statement about adversarial provers under a hardness assumption.
* Aliasing of the work registers of bulletproof.py: registers are values. Buffers returned by reference by the vector objects likewise.
* The serialization library `monero_serialize`, `json`, `re` beyond the one expression used, the ciphers of PyCryptodome and cryptography,
  `pycryptonight`: external packages, parameters or (extra field, EcdhTuple, Bulletproof message) read from their wire format.
* Networking, command line, GUI, logging, the RPC clients, the Trezor transport, the interactive shells.
* Timing and memory.

## Disagreements between the properties and the code

Each is proved, with a concrete witness; the property keeps its full statement in `properties.jsonl`.

| property | finding | theorem |
| --- | --- | --- |
| C01 | the number of accepted inputs' prefixes is only checked when the outputs start; range-proof uploads may be interleaved | C01_exact_prefix_count_false |
| C02 | a message that does not parse, or an answer that does not serialise, leaves the saved session in place | C02_unparsable_message_keeps_session |
| C05 | the tag covers source and input without a length, so bytes can move between the two | C05_bytes_can_move |
| C08, C09 | the input permutation sent by the host is not checked for repetitions: one input can be signed twice | C09_false, C08_false_for_repeated_input |
| C10 | the batch layout is the host's: outputs can stay without range proof | C10_false_no_upload, C10_false_grouping |
| C13 | an absent index and index zero give the same key (harmless: used for different purposes) | C13_no_index_is_index_zero |
| C16 | importing a multiple of ten outputs fails on an empty trailing batch | C16_false |
| C18 | with client version 0 the host never advances to the next batch | C18_false_client0 |
| C22 | truncated byte fields are padded with zeros; a cut key ends the message silently | C22_false, C22_false_key, C22_false_nested |
| C24 | `jpXCZedGfVR` decodes to the same bytes as `11111111111` | C24_false |
| C25 | the length of a decoded address is not checked; an empty payment id gives an integrated prefix | C25_length_not_checked, C25_empty_payment_id |
| C26 | (0,0) is tagged as sub-address when building; axis indices are not tagged when recomputing | C26_false, C26_false_recompute |
| C28 | seeds whose length is not a multiple of four lose their tail; triples above 32 bits are accepted | C28_other_lengths, C28_overflow_accepted |
| C29 | the checksum word never has an influence | C29_false |
| C30 | the last byte is lost for some lengths; 32-byte seeds come back with 33 bytes | C30_false, C30_word_seed |
| C31 | the memoizer ignores the names of keyword arguments | C31_false, C31_false_private |
| C34 | chunk size zero does not terminate | C34_size_zero_diverges |
| C35 | decoding the signed limb form drops the last carry | C35_false_signed |
| C36 | a destination with amount zero changes the key the payment id is encrypted for | C36_false_zero_amount |
| C38 | works only if the sub-address flags of the destinations are consistent | C38_flags_needed |
| C40 | a zero challenge or answer is rejected by the checker although the signer may produce it | C40_false_zero |
| C41 | the chunked prover proves the amount modulo 2^64 | C41_chunked_truncates |
| C44 | more than 32 amounts: no proof of all of them; a zero x_ip is not noticed by the prover | C44_refused, hypothesis `Nonzero` |
| C45 | all blinding comes from constant seeds: masks and amounts can be computed from the proof | C45_false_mask, C45_false_guess |
| C46, C47 | stale or shifted values after caught exceptions, restored vectors, growing, copying, indices below minus the size | C46_false_…, C47_false_… |
| C52 | the answers of blinding come in the other order than unblinding expects | C52_false_order |
| C53 | lengths below 128 are not read back | C53_false_length |
| C54 | AES encrypts with ECB and decrypts with CBC; associated data is ignored on decryption; the version byte is not authenticated; zero scalars | C54_false_aes, C54_false_associated, C54_false_version, C54_false_zero |
| C55 | timestamps that do not increase give a wrong height | C55_false_unordered |
| C58 | y ≥ q and the sign bit on x = 0 are accepted | C58_false, C58_false_sign |
| C59 | `ge_frombytes_vartime_check` never rejects; `point_eq` does not check its second argument | C59_dead_check, C59_false_eq |
| C61 | outside the prime-order subgroup the torsion component is lost | C61_false_torsion |
| C63 | an amount blinded again stands in for a validated output | C63_false_bypass |
| C64 | the lite device signs without any confirmation | C64_false_unconfirmed |
| C65 | the lite device answers twice for the same nonce, which gives the secret key | C65_false_reuse |
| C66, C67 | a refused `put_key` may store the view secret; the public keys never change; `verify_key` compares the own keys with the identity | C66_false_half, C66_false_public, C67_false_own |
| C69 | the regular expression cuts the key data at a quote followed by a comma; generating the file deletes the keys from the object | C69_false_comma, C69_false_cut, C69_false_twice |
| C71 | a read that is not a multiple of 32 bytes loses the rest of the block | C71_false_pieces, C71_lost |
| C72 | requests without bulletproofs, client version 0 with more than two outputs on hard fork 10, and transfers to oneself without a long payment id always fail | C72_only_bulletproofs, C72_version_zero_two_outputs, C72_self_transfer |
| C73 | the address of a zero change is not checked; its owner, if not the wallet, cannot find the output | C73_false_if_change_is_not_own |
| C74 | client version 0 on hard fork 10, up to two outputs: the host drops the corrected pseudo output of the last signature (agent_lite.py 539) and ends with an unbalanced transaction | C74_false_version_zero |
| C75 | a source given twice is signed twice; the transaction can never be accepted | C75_false_if_a_source_is_repeated |
| C78 | method 0 with chunks of half of the first vectors (32 and one amount): the host sends no part of the dot products in the second round (bulletproof_cl.py 326) and the device refuses the next message | C78_false_half_chunks |
| C80 | a wallet without private key cannot derive children: bip32.py 448 calls `PrivateKey(None)` | C80_false |
| C81 | depth above 255 gives an odd number of hex digits (bip32.py 557); derived wallets carry Bitcoin's network in their keys (bip32.py 433-452) and differ from their copies; raw bytes of any length are read (bip32.py 607-617) | C81_false_depth, C81_false_equal, C81_false_truncated |
| C82 | `export_to_wif(compressed=True)` adds str to bytes (keys.py 94); the network byte of derived nodes is always Bitcoin's; ed25519 nodes export the public key (keys.py 370-373); the last byte of the compressed form is not checked (keys.py 137-140) | C82_false_compressed, C82_false_network, C82_false_ed25519, C82_false_marker |
| C83 | the recovery asserts equal networks and fails for every network but Bitcoin's main network (keys.py 186) | C83_false |
| C84 | with SLIP-0010 the master key has to be a private key of secp256k1 and no key may be a multiple of the order of ed25519 (bip32.py 693-706, keys.py); SLIP-0010 accepts every key | C84_slip_false |
| C84 | `from_monero_mnemonics` of one text: `clean_input` (seed.py 83-94) does not split it, and the empty secret raises | C84_false_text |
| C85 | the BIP39 words of `create_wallet` encode the seed and a checksum byte, and `from_mnemonics` either keeps the byte or uses the words as password | C85_false, C85_false_words |
| C86 | `build` (transaction_builder.py 401) collects the major indices of the inputs as `subaddr_indices`; minor ones are needed (agent_lite and the device compute the table from the account and these) | C86_false_subaddress |
| C88 | `live_refresh` (agent_lite.py 911-920) checks the signature but not that the key image is in the subgroup of prime order | C88_false_torsion |
| C89 | `amount_to_uint64` (monero_poc/utils/misc.py 132-133) multiplies a float by 10^12 and cuts off; `do_T` (monero_poc/trezor.py 486-510) shows eight decimals of twelve | C89_false, C89_false_more, C89_false_shown |
| C90 | `do_sweep_single` (monero_poc/agent.py 359) parses its line as `sweep_below`, and `sweep_params` (1287-1290) leaves out the address | C90_false_single, C90_false_single_nothing |
| C90 | `parse_transfer_cmd` (monero_poc/utils/misc.py 239-240) drops the words after the payment id; `transfer A 1 <payment id> B 2` pays only A | C90_false_dropped |
| C90 | `do_sweep_dust` (monero_poc/agent.py 310-321) has the set signed without a question | C90_false_dust |
| C90 | the number documented as ring size is sent as `mixin` by `transfer` (agent.py 1261) and as `ring_size` by the sweeps (1276) | C90_requested_is_typed, C90_sweep_all |
| C91 | `sign_transaction_data` swaps `tx.sources` in place (agent_lite.py 437) but not `tx.selected_transfers`; the record of the signed transaction (wallet.py 256-280) pairs them wrongly | C91_false_record |
| C92 | `set_address` (monero_poc/agent.py 926-944) puts the agent's own public view key into the address, then `open_with_keys` (921) compares the two: the check cannot fail, and a wrong view key or a sub-address opens an account with an address nobody gave | C92_false_view_key |
| C92 | the network of the address is never compared with the agent's (863-868, 903-904) | C92_false_network |
| C93 | with the threaded server (monero_poc/trezor.py 601-604) a request that arrives while the user reads the prompt of another one overwrites the shared result and is answered by the user's yes without having been shown | C93_false_threads |
| C93 | an answer typed between `in_confirmation = True` and the creation of the event is lost; the request then waits forever and no other is served | C93_false_lost |
| C94 | `wallet_restore_param` (monero_poc/agent.py 754-782) keeps the typed text in `height` when a date cannot be resolved, and `sure_stage` from before: the text can be confirmed and is written as the restore height | C94_false_height |
| C94 | a negative restore height is accepted (788) | C94_false_negative |
| C94 | with `--view-key` and `--address` and no new account file, the keys file is made with the empty password (65, 612-624) | C94_false_password |
| C95 | `add_output` (monero_poc/agent.py 1042, 1051) puts a begun line together and then replaces it by the last piece read: a line that comes in three reads loses its beginning; the announcement "starting wallet" is missed | C95_false_output |
| C95 | 1045 does not pass `is_err`: the first line completed by a read of the error output is recorded and logged as standard output | C95_false_error_output |
| C95 | an unfinished last line is never processed (1086-1087, 1096) | C95_false_last_line |
| C95 | the path of the wallet program is not quoted in the shell command (955, 979) | C95_false_directory |
| C95 | a password with a line end answers both questions of the wallet (1063-1066) | C95_false_password |
| C96 | `scan_output` (monero.py 285-291) takes a nonzero clear amount as it is, also in a transaction with commitments, and sets no mask | C96_false_clear |
| C96 | nothing compares key images, so an output key seen again is credited again (the "burning" of outputs) | C96_false_twice, C96_same_key |
| C97 | `checkvalid` (ed25519_2.py 276-302) accepts S + l as well as S | C97_false_malleable |
| C97 | `checkvalid` accepts public keys of small order | C97_false_small_order |
| C97 | `"".join([h[i] …])` (ed25519.py 155) joins numbers in Python 3: TypeError | C97_false_affine_sign |
| C98 | `decodepoint` (ed25519_2.py 261-269) reads the identity with the sign bit set as (q, 1), RFC 8032 and `recover_x` refuse it | C98_false_decompress |
| C99 | neither key image nor keys are checked to be in the prime-order subgroup by the ring signature check; with challenges divisible by eight a second key image is accepted | C99_false_torsion |
| C101 | `Failure` and 18 other numbered classes describe fields with `p.EnumType`, which monero_glue/protobuf.py does not define; the emulated device cannot send a refusal: the agent gets status 500 while the device's state has changed; `abort(404)` of an uninitialised device is swallowed the same way; the agent's `call` has no route | C101_false_failure, C101_false_call, C101_unsendable |
| C05 | with the real encoding the optional last field of the entry can be moved in front of the prefix input | C05_false_moved |
| C102 | `ver_asnl` adds up the equations of all rows and checks only the sum: whoever knows one secret of one row signs for all rows (the known flaw for which Monero replaced this scheme) | C102_false_forged |
| C103 | `mul_inverse_egcd` has the answer -1 for moduli below 1 but raises ZeroDivisionError there, since the pair is computed before it is indexed | C103_mul_inverse_small |
| C104 | `to_phlib` converts the parts of an answer with `to_trezorlib`, so messages inside an answer keep the classes of trezorlib | C104_false_nested |
| C104 | a number in a bytes field becomes that many zero bytes instead of an error | C104_false_number |
| C105 | `MultiExp(size=n)` sets its size to zero and evaluates to the neutral element | C105_false_size |
| C105 | `_get_chunk` compares with `<`: the first pair of every part of a merged holder cannot be read | C105_false_merged |
| C106 | `add_extra_nonce_to_tx_extra` accepts 255 bytes and writes the length in one byte, but lengths from 128 are read as continued | C106_false_nonce |
| C107 | `get_view_key` calls `encodepoint` with the secret view key, a number, and raises | C107_false_view_key |
| C109 | A declared change of zero in a transaction with two outputs is not compared with the wallet's address. A host that declares a zero change to the recipient's address makes the device derive that output with the wallet's own view key: the recipient cannot find it and nobody can spend it. | `C109_false_lost` |
| C112 | reducing outputs moves the change to the front but keeps its old index; amplifying with the change last declares the first output's amount as change; inputs are split under the keys of the new wallet before they are rewritten for it; transactions without change raise; `--minors` is ignored for account 0 | `C112_false_index`, `C112_false_subs`, `C112_false_fails`, `C112_false_amount`, `C112_false_inputs`, `C112_false_no_change`, `C112_false_minor` |
| C113 | an address with a view key of small order is accepted by the device; the first outputs to it of all transactions have the same one-time key | `C113_false_small` |
| C116 | `ecdh_decode` with the receiver's key and the compact encoding writes the curve point object into a byte array and raises for every pair of keys; `decode_rct` always uses the first encoding and returns the amount even when it does not open the commitment | `C116_false_v2`, `C116_false_amount` |
| C117 | two equal payments to one integrated address give `[0, 0, 1, 1]`; an equal payment to the standard address of that wallet is listed too | `C117_false_repeated`, `C117_false_standard` |
| C118 | `dict_to_proto` accepts `-1` for an unsigned field, reads the text `false` as true and takes a text for a list of one-character texts | `C118_false_negative`, `C118_false_flag`, `C118_false_characters` |
| C120 | With the C implementation and `decode=True` the proof is cut up twice (ring_ct.py 230-233), which always raises; with both `byte_enc` and `decode` the C path raises while the Python path silently returns the string. | `C120_false_decode`, `C120_forms` |
| C121 | An address behind the last symbol is attributed to the last but one symbol, because the search returns the last two indices and the first is used (log_aux_qemu.py 65, 123-124); an address before all symbols is attributed to the first. | `C121_false_last`, `C121_false_first` |
| C123 | wallet_rpc.py 32-33, daemon_rpc.py 44-45: a text without a colon becomes a list of one element; each request then raises IndexError | `C123_false_text` |
| C124 | agent.py 399-405: a line without colon, such as a misspelt one, opens `bridge:web01` | `C124_false_other` |
| C125 | bip32.py 274-283 says the address can be made from a public key on an insecure server; line 448 raises for it. 788-790: entropy of the user makes the call raise | `C125_false_public`, `C125_false_entropy` |
| C126 | In place with an offset the fold overwrites elements it still has to read; `_vector_sum_aA` ignores `a_raw` and uses the scalar left by an earlier call. Neither is reached from the provers. | C126_false_offset, C126_false_raw |
| C127 | `_vector_scalar`, `_vector_scalar2`, `_vector_z_two` and `_init_exponents` return zeros for vectors of 64 and more elements: `dst[i]` of a chunked vector is a copy. Only unused code and the generation of the precomputed tables call them. | C127_false_scaled, C127_false_ztwo, C127_false_generators |
| C128 | `CopyFrom` copies the dictionary only: repeated fields of the copy and the original are the same list. | C128_false_copy |
| C129 | An index below minus the length of a slice is not refused and reads a neighbouring element; `KeyVWrapped.read` writes to a copy when the wrapped vector is chunked; `_two_aux` calls itself with a power instead of an index for even numbers from 64 on. | C129_false_before, C129_false_wrapped, C129_two_partial |
| C130 | `sign_unsigned_tx` and `sign_tx` keep nothing of the earlier transactions: an output may be spent by two transactions of the set, and an exception for a later one discards the signed ones. | C130_false_shared_source, C130_false_refused |
| C131 | `ByteSize` calls the coroutine `dump_message` without awaiting it and returns 0. | C131_false_size |
| C132 | `invert_ext` changes the point it is given; `decodeint_into_noreduce` makes scalars that are not reduced. | C132_false_invert, C132_false_raw |

## Trusted base

* The Lean 4.33.0 kernel. Mathlib as installed is used but its theorems are checked by the same kernel.
* Axioms: only `propext`, `Classical.choice` and `Quot.sound`. The table at the end lists them for each theorem (from `#print axioms`).
* The reading of the Python code. The model is tied to the code only by the citations on each definition; nothing checks them mechanically.
  Simplifications are named in those comments.
* The specifications in `Spec/`, which are short and meant to be read.
* Hypotheses about abstract primitives, which appear in the theorem statements:
  * C03–C10, C14, C57: `respOk`, answers serialise; `Binding`, the MAC separates the purposes and is injective on the buffers, so a tag that was
    issued identifies what it was issued for (C05, C06, C08, C09); `Sealing`, the sealed masks open to what was sealed (C08).
    No finite hash satisfies `Binding`; C115 restates C05, C06, C08 and C109 without it, with the forgery, collision or broken seal as an explicit alternative.
  * C13: injectivity of the hash where keys, not buffers, are claimed to differ.
  * C15: none of the hash; a collision would let other outputs through, which is why the statement is about the hashed bytes
    (`C15_hashed_bytes_injective` for 32-byte keys).
  * C25, C27: the checksum is four bytes of an arbitrary hash.
  * C37–C45: the hash has 32-byte digests where bytes are parsed back.
  * C54: the stream cipher is its own inverse, the AEAD opens what it sealed; C68, C70: the cipher of the device opens what it encrypted.
  * C63, C64: the two strings the device compares by their SHA-256 hashes are not a collision of it.
  * C72–C74: `Lawful`, encodings and ciphers can be undone, range proofs verify; C75 and C76 prove it from `Outside.Ok`: digests of 32 bytes that
    are not zero modulo the group order, a cipher that can be undone, messages that serialise, non-negative random numbers, keys that are not zero.
  * C84, C85: PBKDF2 and the CRC of mnemonic words are arbitrary functions; random bytes are a parameter.
  * C79–C85: HMAC-SHA512, SHA-256, RIPEMD-160 after SHA-256 and the double SHA-256 checksum are arbitrary functions with digests of the right
    length; the `ecdsa` package's arithmetic on secp256k1 is modelled (`Model/Secp`) and proved to be Mathlib's group of points.
  * C69: `Codec.Lawful`, the external codecs are inverse to each other; satisfied by the concrete codec `epee` in the same file.

## Seeded bugs

`seeded/LOG.jsonl` lists every experiment: a definition of the model edited in a scratch copy, and the theorems that stopped proving. Edits that
no theorem noticed and why:

746 experiments, 37 not noticed.

* `Verif.Mnemonic.swap`, middle bytes not swapped: swapping is an involution, the edited function is equal to the original
* `Verif.Bp.hashed`, two scalars swapped in the hashed proof (both streaming and one shot): shared by prover and verifier, so completeness still holds; the order of the hashed values is a convention of the network, not of this code
* `Verif.Signer.dSpend`, spend key encrypted under the alpha discriminator: theorem tightened, the edit is caught now
* `Verif.Signer.holderInit`, holder has a default the builder overwrites (harmless: the attribute is always present): the edited default is equivalent
* `Keccak.Prng.gen`, counter not incremented: no theorem was about the generator; C71 added
* `Lite.cmdKeyImage`, hashed twice: theorem tightened, the edit is caught now
* `Lite.cmdDeriveSubPublic`, adds instead of subtracting: theorem tightened, the edit is caught now
* `Lite.getSubaddress`, keys swapped: theorem tightened, the edit is caught now
* `Lite.getSubSpend`, wrong secret: theorem tightened, the edit is caught now
* `Lite.mlsagHash`, wrong option bit: theorem tightened, the edit is caught now
* `Lite.mlsagMsg`, hash not restarted: theorem tightened, the edit is caught now
* `Lite.setSignatureMode`, mode ignored: theorem tightened, the edit is caught now
* `Lite.prehashUpdate`, ecdh info not hashed: theorem tightened, the edit is caught now
* `Lite.prehashFinalize`, commitments not compared: theorem tightened, the edit is caught now
* `Lite.chacha8Prekey`, keys swapped: theorem tightened, the edit is caught now
* `Key.subSecret`, minor index ignored: theorem tightened, the edit is caught now
* `Key.le32`, byte repeated: theorem tightened, the edit is caught now
* `Key.moneroKeys`, view key from the unreduced seed: theorem tightened, the edit is caught now
* `Sig.deviceSign`, verification ignored: theorem tightened, the edit is caught now
* `Sig.muC`, same domain: theorem tightened, the edit is caught now
* `Sig.verRange`, sum not compared: C41_range_accept_iff added: acceptance is characterized exactly, the edit is caught now
* `Sig.verRange`, length: C41_range_accept_iff added: acceptance is characterized exactly, the edit is caught now
* `Bp.gGen`, G generators equal H generators: C44_generators added: the generator vectors are stated exactly, the edit is caught now
* `Bp.processRand`, same seed: C45 is false for the code as it is; the negative theorems do not depend on the seed of this value
* `Agent.splitMasks`, masks overlap: C74_masks_cut added, the edit is caught now
* `Agent.allOutStep`, prefix hash unchecked: the modelled device never answers with wrong hashes; C74_hashes_checked added, which holds without assumptions on the device's parts, and the edit is caught now
* `Agent.allOutStep`, message hash unchecked: the modelled device never answers with wrong hashes; C74_hashes_checked added, which holds without assumptions on the device's parts, and the edit is caught now
* `Builder.randomScalar`, byte order: the byte order changes which of the random numbers gives which scalar, not what the builder does with it; every theorem holds for every scalar
* `Hd.PublicKey.eq`, y ignored: C81_public_key_equal was added: two keys are equal exactly if they are the same point
* `Hd.fromHexKey`, length unchecked: C81_public_key was added: a key is read from the encoding of a point and from nothing else
* `Hd.HexArg.h`, length unchecked: every caller passes text of the right length; the check guards arguments no modelled caller gives
* `Hd.Wallet.eq`, chain code ignored: C81_equal_is_same was added, the edit is caught now
* `Hd.Wallet.eq`, network ignored: C81_equal_is_same was added, the edit is caught now
* `Hd.btcTest`, public version equals private: C81_versions was added, the edit is caught now
* `Seed.fromMnemonics`, passphrase ignored with indices: C84_indices_passphrase was added, the edit is caught now
* `Prompt.exec`, busy counts as yes: C93_view_key_busy was added, the edit is caught now
* `Start.keyFile`, wallet file overwritten: C94_keys_file and C94_watches_partial now name the file themselves, the edit is caught now

## Axioms per theorem

E: `propext`, C: `Classical.choice`, Q: `Quot.sound`.

| theorem | axioms |
| --- | --- |
| Verif.Signer.C01_order_partial | E C Q |
| Verif.Signer.C01_complete | E C Q |
| Verif.Signer.C01_exact_prefix_count_false | E C Q |
| Verif.Signer.C01_upload_outside_output_phase | E C Q |
| Verif.Signer.C02_nothing_to_resume_partial | E C Q |
| Verif.Signer.C02_init_forgets | E C Q |
| Verif.Signer.C02_unparsable_message_keeps_session | E C Q |
| Verif.Signer.C02_unserialisable_answer | E C Q |
| Verif.Signer.C03_confirmed | E C Q |
| Verif.Signer.C04_counts | E C Q |
| Verif.Pb.C05_boundary_not_unique | E C Q |
| Verif.Signer.C05_prefix_input_real | E C Q |
| Verif.Signer.C05_signed_input_real | E C Q |
| Verif.Signer.C05_prefix_input | E C Q |
| Verif.Signer.C05_signed_input | E C Q |
| Verif.Signer.C05_false_moved | E C Q |
| Verif.Signer.C05_prefix_input_partial | E C Q |
| Verif.Signer.C05_signed_input_partial | E C Q |
| Verif.Signer.C05_prefix_input_delimited | E C Q |
| Verif.Signer.C05_signed_input_delimited | E C Q |
| Verif.Signer.C05_bytes_can_move | E C Q |
| Verif.Signer.C06_outputs_real | E C Q |
| Verif.Signer.C06_output_confirmed | E C Q |
| Verif.Signer.C06_outputs_confirmed | E C Q |
| Verif.Signer.C06_wrong_tag_rejected | E C Q |
| Verif.Signer.C07_value_conserved | E C Q |
| Verif.Signer.C07_fee_reported | E C Q |
| Verif.Signer.C08_masks_balance_partial | E C Q |
| Verif.Signer.C08_false_for_repeated_input | E C Q |
| Verif.Signer.C09_false | E C Q |
| Verif.Signer.C09_signed_once_partial | E C Q |
| Verif.Signer.C10_covered_partial | E C Q |
| Verif.Signer.C10_false_no_upload | E C Q |
| Verif.Signer.C10_false_grouping | E C Q |
| Verif.Signer.C11_change_owned | E C Q |
| Verif.Signer.C12_attributes | E Q |
| Verif.Signer.C12_owner_not_saved | E |
| Verif.Signer.C12_restored | E Q |
| Verif.Signer.C12_suspension | E C Q |
| Verif.Signer.C13_buffers_separate | E C Q |
| Verif.Signer.C13_secrets_separate | E C Q |
| Verif.Signer.C13_input_keys | E C Q |
| Verif.Signer.C13_output_keys | E C Q |
| Verif.Signer.C13_no_truncation | E C Q |
| Verif.Signer.C13_room | E C Q |
| Verif.Signer.C13_no_index_is_index_zero | E C Q |
| Verif.Signer.C14_streaming | E Q |
| Verif.Signer.C14_streaming_eq_oneshot | E Q |
| Verif.Signer.C14_device | E C Q |
| Verif.KiSync.C15_released_only_for_committed | E C Q |
| Verif.KiSync.C15_answers_encrypted | E C Q |
| Verif.KiSync.C15_error_drops | E C Q |
| Verif.KiSync.C15_hashed_bytes_injective | E C Q |
| Verif.KiSync.C15_hashed_bytes_ambiguous | E Q |
| Verif.KiSync.C16_import_partial | E C Q |
| Verif.KiSync.C16_false | E C Q |
| Verif.Batches.C17_batches | E C Q |
| Verif.Batches.C17_multi_output | E C Q |
| Verif.Batches.C17_refused | E C Q |
| Verif.Batches.C18_device | E C Q |
| Verif.Batches.C18_agree_partial | E C Q |
| Verif.Batches.C18_layout_of_host | E C Q |
| Verif.Batches.C18_false_client0 | E |
| Verif.Batches.C18_single_batch | E C Q |
| Verif.Varint.C19_uvarint_roundtrip | E C Q |
| Verif.Varint.C19_uvarint_negative_rejected | E Q |
| Verif.Varint.C19_uvarint_prefix_free | E C Q |
| Verif.Varint.C19_uvarint_truncated_rejected | E C Q |
| Verif.Varint.C20_sint_roundtrip | E C Q |
| Verif.Varint.C20_uint_roundtrip | E C Q |
| Verif.Pb.C21_roundtrip | E C Q |
| Verif.Pb.C21_injective | E C Q |
| Verif.Pb.C21_unknown_skipped | E C Q |
| Verif.Pb.C22_truncated_partial | E C Q |
| Verif.Pb.C22_false | E Q |
| Verif.Pb.C22_false_key | E Q |
| Verif.Pb.C22_false_nested | E |
| Verif.Pb.C22_nested_limit | E |
| Verif.B58.C23_roundtrip | E C Q |
| Verif.B58.C23_roundtrip_bin | E C Q |
| Verif.B58.C23_length | E C Q |
| Verif.B58.C23_injective | E C Q |
| Verif.B58.C23_empty_bin | E |
| Verif.B58.C24_false | E |
| Verif.B58.C24_false_everywhere | E C Q |
| Verif.B58.C24_canonical_partial | E C Q |
| Verif.B58.C24_injective_partial | E C Q |
| Verif.Addr.C25_roundtrip | E C Q |
| Verif.Addr.C25_injective | E C Q |
| Verif.Addr.C25_checksum | E Q |
| Verif.Addr.C25_bad_checksum_rejected | E C Q |
| Verif.Addr.C25_canonical | E C Q |
| Verif.Addr.C25_length_not_checked | E C Q |
| Verif.Addr.C25_empty_payment_id | E Q |
| Verif.Addr.C26_false | E C Q |
| Verif.Addr.C26_false_recompute | E Q |
| Verif.Addr.C26_flag_partial | E Q |
| Verif.B58.C27_roundtrip | E C Q |
| Verif.B58.C27_canonical | E C Q |
| Verif.B58.C27_check | E C Q |
| Verif.Mnemonic.C28_standard | E C Q |
| Verif.Mnemonic.C28_roundtrip | E C Q |
| Verif.Mnemonic.C28_other_lengths | E Q |
| Verif.Mnemonic.C28_overflow_accepted | E Q |
| Verif.Mnemonic.C29_false | E Q |
| Verif.Mnemonic.C29_false_concrete | E C Q |
| Verif.Bip.C30_exact | E C Q |
| Verif.Bip.C30_roundtrip_partial | E C Q |
| Verif.Bip.C30_false | E C Q |
| Verif.Bip.C30_word_seed | E C Q |
| Verif.Bip.C31_history_partial | E |
| Verif.Bip.C31_positional | E |
| Verif.Bip.C31_false | E |
| Verif.Bip.C31_false_private | E |
| Verif.Bip.C31_index | E C Q |
| Verif.Bip.C31_index_injective | E C Q |
| Verif.Offsets.C32_roundtrip | E Q |
| Verif.Offsets.C32_roundtrip_sorted | E Q |
| Verif.Offsets.C32_nonneg | E Q |
| Verif.Offsets.C32_distinct | E Q |
| Verif.Common.C33_checker | E C Q |
| Verif.Common.C33_invalid_rejected | E C Q |
| Verif.Common.C33_apply | E C Q |
| Verif.Common.C33_sorted | E C Q |
| Verif.Common.C34_chunk | E C Q |
| Verif.Common.C34_trailing_empty | E C Q |
| Verif.Common.C34_size_zero_diverges | E |
| Verif.Ed.C35_int_roundtrip | E C Q |
| Verif.Ed.C35_int_bytes | E C Q |
| Verif.Ed.C35_scalar_roundtrip | E C Q |
| Verif.Ed.C35_scalar_range | E Q |
| Verif.Ed.C35_field_limbs | E C Q |
| Verif.Ed.C35_scalar_limbs | E C Q |
| Verif.Ed.C35_signed_limbs | E C Q |
| Verif.Ed.C35_false_signed | E |
| Verif.Ed.C35_signed_partial | E C Q |
| Verif.Ed.C35_const_limbs | E C Q |
| Verif.Key.C36_extra_parses | E C Q |
| Verif.Key.C36_payment_id_recovered_partial | E C Q |
| Verif.Key.C36_false_zero_amount | E Q |
| Verif.Key.C37_amount_v1 | E C Q |
| Verif.Key.C37_amount_v2 | E C Q |
| Verif.Key.C37_large_refused | E Q |
| Verif.Key.C37_decoded_opens | E Q |
| Verif.Key.C38_table_valid | E C Q |
| Verif.Key.C38_recipient_can_spend | E C Q |
| Verif.Key.C38_flags_needed | E Q |
| Verif.Key.C38_secret_standard | E C Q |
| Verif.Key.C38_address_standard | E C Q |
| Verif.Key.C38_account_standard | E C Q |
| Verif.Key.C39_secret_and_image | E C Q |
| Verif.Key.C39_image_unique | E C Q |
| Verif.Key.C39_foreign_rejected | E C Q |
| Verif.Sig.C40_accept_iff | E C Q |
| Verif.Sig.C40_schnorr | E C Q |
| Verif.Sig.C40_verifies_partial | E C Q |
| Verif.Sig.C40_false_zero | E C Q |
| Verif.Sig.C40_ring_accept_iff | E C Q |
| Verif.Sig.C40_ring_partial | E C Q |
| Verif.Sig.C40_export | E C Q |
| Verif.Sig.C41_borromean | E C Q |
| Verif.Sig.C41_accept_iff | E C Q |
| Verif.Sig.C41_range | E C Q |
| Verif.Sig.C41_mem_same | E C Q |
| Verif.Sig.C41_too_large | E Q |
| Verif.Sig.C41_chunked | E C Q |
| Verif.Sig.C41_chunked_truncates | E C Q |
| Verif.Sig.C41_flatten_roundtrip | E C Q |
| Verif.Sig.C41_wire | E C Q |
| Verif.Sig.C41_range_accept_iff | E C Q |
| Verif.Sig.C42_simple | E C Q |
| Verif.Sig.C42_device | E C Q |
| Verif.Sig.C42_device_releases_valid | E |
| Verif.Sig.C42_full | E C Q |
| Verif.Sig.C42_accept_iff | E C Q |
| Verif.Sig.C43_complete | E C Q |
| Verif.Sig.C43_accept_iff | E C Q |
| Verif.Bp.C44_equations | E C Q |
| Verif.Bp.C44_complete | E C Q |
| Verif.Bp.C44_batch | E C Q |
| Verif.Bp.C44_produces | E C Q |
| Verif.Bp.C44_generators | E C Q |
| Verif.Bp.C44_refused | E Q |
| Verif.Bp.C44_verify_bp | E C Q |
| Verif.Bp.C44_accept_iff | E C Q |
| Verif.Bp.C44_weights | E C Q |
| Verif.Bp.C44_checks | E C Q |
| Verif.Bp.C45_false_mask | E C Q |
| Verif.Bp.C45_false_guess | E Q |
| Verif.KeyV.C46_powers_partial | E C Q |
| Verif.KeyV.C46_powers_scan | E C Q |
| Verif.KeyV.C46_powers_rewind | E Q |
| Verif.KeyV.C46_false_powers | none |
| Verif.KeyV.C46_prng_partial | E C Q |
| Verif.KeyV.C46_false_prng | none |
| Verif.KeyV.C46_prng_scan | E C Q |
| Verif.KeyV.C46_r0_partial | E C Q |
| Verif.KeyV.C46_r0_scan | E C Q |
| Verif.KeyV.C46_r0_restored_partial | E C Q |
| Verif.KeyV.C46_false_r0 | E |
| Verif.KeyV.C47_history_partial | E C Q |
| Verif.KeyV.C47_new | E Q |
| Verif.KeyV.C47_false_index | E |
| Verif.KeyV.C47_shrink | E Q |
| Verif.KeyV.C47_grow_partial | E C Q |
| Verif.KeyV.C47_false_grow | E |
| Verif.KeyV.C47_copy_partial | E C Q |
| Verif.KeyV.C47_false_copy | E |
| Verif.KeyV.C47_save | E C Q |
| Verif.KeyV.C47_false_save | E |
| Verif.Bp.C48_wire | E C Q |
| Verif.Bp.C48_refused | E |
| Verif.Bp.C48_roundtrip | E C Q |
| Verif.Bp.C48_injective | E C Q |
| Verif.Bp.C48_produced | E C Q |
| Verif.Ed.C49_on_curve | E C Q |
| Verif.Ed.C49_add | E C Q |
| Verif.Ed.C49_double | E C Q |
| Verif.Ed.C49_neg_sub | E C Q |
| Verif.Ed.C49_scalarmult | E C Q |
| Verif.Ed.C49_scalarmult_base | E C Q |
| Verif.Ed.C49_base | E C Q |
| Verif.Ed.C49_equal | E C Q |
| Verif.Ed.C49_group | E C Q |
| Verif.Ed.C49_order | E C Q |
| Verif.Ed.C49_encode_decode | E C Q |
| Verif.Ed.C49_encode_injective | E C Q |
| Verif.Ed.C49_decoded_on_curve | E C Q |
| Verif.Ed.C50_inv | E C Q |
| Verif.Ed.C50_inv_power | E C Q |
| Verif.Ed.C50_scalar_inv | E C Q |
| Verif.Keccak.C51_history | E Q |
| Verif.Keccak.C51_pieces | E Q |
| Verif.Lite.C52_unblind | E C Q |
| Verif.Lite.C52_reduces | E C Q |
| Verif.Lite.C52_false_order | E C Q |
| Verif.Lite.C53_bytes | E |
| Verif.Lite.C53_integers | E Q |
| Verif.Lite.C53_refused | E Q |
| Verif.Lite.C53_tag | E C Q |
| Verif.Lite.C53_length_partial | E C Q |
| Verif.Lite.C53_false_length | E Q |
| Verif.Enc.C54_roundtrip_plain | E Q |
| Verif.Enc.C54_accepts_iff | E C Q |
| Verif.Enc.C54_roundtrip_partial | E C Q |
| Verif.Enc.C54_false_zero | E C Q |
| Verif.Enc.C54_unsigned_partial | E C Q |
| Verif.Enc.C54_unsigned_refused | E Q |
| Verif.Enc.C54_outputs_partial | E C Q |
| Verif.Enc.C54_false_version | E Q |
| Verif.Enc.C54_sealed | E |
| Verif.Enc.C54_false_associated | E |
| Verif.Enc.C54_aes | E Q |
| Verif.Enc.C54_false_aes | E C Q |
| Verif.Lite.C54_prekey | E Q |
| Verif.Height.C55_terminates | E C Q |
| Verif.Height.C55_before | E C Q |
| Verif.Height.C55_bracket | E C Q |
| Verif.Height.C55_false_unordered | E |
| Verif.Signer.C56_prefix_hash | E C Q |
| Verif.Signer.C57_signature | E C Q |
| Verif.Ed.C58_false | E |
| Verif.Ed.C58_false_sign | E C Q |
| Verif.Ed.C58_partial | E C Q |
| Verif.Ed.C59_check_partial | E C Q |
| Verif.Ed.C59_dead_check | E |
| Verif.Ed.C59_false_eq | none |
| Verif.Ed.C59_sc_check | E C Q |
| Verif.Ed.C60_hash_to_point | E C Q |
| Verif.Ed.C61_mul_inv_eight | E C Q |
| Verif.Ed.C61_false_torsion | E |
| Verif.Keccak.C62_standard | E C Q |
| Verif.Keccak.C62_keccak256 | E C Q |
| Verif.Keccak.C62_permutation | E C Q |
| Verif.Keccak.C62_size | E Q |
| Verif.Lite.C63_output | E C Q |
| Verif.Lite.C63_chain_partial | E C Q |
| Verif.Lite.C63_false_bypass | E Q |
| Verif.Lite.C64_mode_partial | E Q |
| Verif.Lite.C64_message_partial | E C Q |
| Verif.Lite.C64_false_unconfirmed | E Q |
| Verif.Lite.C65_false_reuse | E C Q |
| Verif.Lite.C66_accepts_partial | E C Q |
| Verif.Lite.C66_false_half | E C Q |
| Verif.Lite.C66_false_public | E C Q |
| Verif.Lite.C67_mode0_partial | E C Q |
| Verif.Lite.C67_false_own | E C Q |
| Verif.Lite.C68_challenge | E Q |
| Verif.Lite.C68_closes_partial | E C Q |
| Verif.KeysFile.C69_load_partial | E C Q |
| Verif.KeysFile.C69_false_comma | E C Q |
| Verif.KeysFile.C69_false_cut | E |
| Verif.KeysFile.C69_false_twice | E |
| Verif.Lite.C70_subaddress | E C Q |
| Verif.Lite.C70_subaddress_secret | E C Q |
| Verif.Lite.C70_key_image | E C Q |
| Verif.Lite.C70_subaddress_of_output | E C Q |
| Verif.Lite.C70_derive | E C Q |
| Verif.Prng.C71_next | E Q |
| Verif.Prng.C71_history_partial | E Q |
| Verif.Prng.C71_false_pieces | E |
| Verif.Prng.C71_lost | E Q |
| Verif.Prng.C71_scalars | E C Q |
| Verif.Agent.C72_honest_signing_completes | E C Q |
| Verif.Agent.C72_only_bulletproofs | E C Q |
| Verif.Agent.C72_version_zero_two_outputs | E C Q |
| Verif.Agent.C72_self_transfer | E C Q |
| Verif.Agent.C73_recipients_find_outputs | E C Q |
| Verif.Agent.C73_false_if_change_is_not_own | E C Q |
| Verif.Agent.C73_short_payment_id | E C Q |
| Verif.Agent.C73_long_payment_id | E C Q |
| Verif.Agent.C74_hashes_checked | E C Q |
| Verif.Agent.C74_masks_cut | E Q |
| Verif.Agent.C74_result_is_right_partial | E C Q |
| Verif.Agent.C74_recipients_find_outputs_partial | E C Q |
| Verif.Agent.C74_foreign_source_refused | E C Q |
| Verif.Agent.C74_foreign_change_refused | E C Q |
| Verif.Agent.C74_false_version_zero | E C Q |
| Verif.Real.C75_honest_is_accepted | E C Q |
| Verif.Real.C75_obtained_is_accepted_partial | E C Q |
| Verif.Real.C75_false_if_a_source_is_repeated | E C Q |
| Verif.Real.C76_received_is_spendable | E C Q |
| Verif.KiSync.C77_imported_images | E C Q |
| Verif.KiSync.C77_found_when_spent | E C Q |
| Verif.KiSync.C77_received_are_imported_partial | E C Q |
| Verif.Off.C78_same_proof | E C Q |
| Verif.Off.C78_completes | E C Q |
| Verif.Off.C78_blinding_irrelevant | E C Q |
| Verif.Off.C78_verifies | E C Q |
| Verif.Off.C78_produces | E C Q |
| Verif.Off.C78_false_half_chunks | E C Q |
| Verif.Hd.C79_derivation | E C Q |
| Verif.Hd.C79_serialized | E C Q |
| Verif.Hd.C79_child | E C Q |
| Verif.Hd.C80_public_path_partial | E C Q |
| Verif.Hd.C80_public_keys_partial | E C Q |
| Verif.Hd.C80_false | E Q |
| Verif.Hd.C80_false_of | E C Q |
| Verif.Hd.C80_private_parent_partial | E C Q |
| Verif.Hd.C81_public_key | E C Q |
| Verif.Hd.C81_public_key_read | E C Q |
| Verif.Hd.C81_public_key_equal | E C Q |
| Verif.Hd.C81_equal_is_same | E C Q |
| Verif.Hd.C81_versions | E C Q |
| Verif.Hd.C81_roundtrip | E C Q |
| Verif.Hd.C81_canonical | E C Q |
| Verif.Hd.C81_false_depth | E C Q |
| Verif.Hd.C81_false_equal | E C Q |
| Verif.Hd.C81_equal_partial | E C Q |
| Verif.Hd.C81_false_truncated | E C Q |
| Verif.Hd.C82_key | E C Q |
| Verif.Hd.C82_false_compressed | E Q |
| Verif.Hd.C82_wallet_partial | E C Q |
| Verif.Hd.C82_false_network | E C Q |
| Verif.Hd.C82_false_ed25519 | E Q |
| Verif.Hd.C82_false_marker | E C Q |
| Verif.Hd.C83_recover_partial | E C Q |
| Verif.Hd.C83_false | E C Q |
| Verif.Hd.C83_refused | E Q |
| Verif.Seed.C84_seed_standard | E C Q |
| Verif.Seed.C84_default_path | E C Q |
| Verif.Seed.C84_slip_standard_partial | E C Q |
| Verif.Seed.C84_slip_false | E C Q |
| Verif.Seed.C84_words_restore | E C Q |
| Verif.Seed.C84_false_text | E Q |
| Verif.Seed.C84_mnemonics | E C Q |
| Verif.Seed.C84_indices_passphrase | E C Q |
| Verif.Seed.C85_restore_partial | E C Q |
| Verif.Seed.C85_false_words | E C Q |
| Verif.Seed.C85_false | E C Q |
| Verif.Builder.C86_input | E C Q |
| Verif.Builder.C86_balance | E C Q |
| Verif.Builder.C86_signed_partial | E C Q |
| Verif.Builder.C86_false_subaddress | E C Q |
| Verif.TxKeys.C87_keys_kept_partial | E C Q |
| Verif.TxKeys.C87_keys_handed_out | E Q |
| Verif.LiveRefresh.C88_returned_is_proven | E C Q |
| Verif.LiveRefresh.C88_wrong_image_one_challenge | E C Q |
| Verif.LiveRefresh.C88_exported_is_returned | E C Q |
| Verif.LiveRefresh.C88_false_torsion | E C Q |
| Verif.Amount.C89_false | E C Q |
| Verif.Amount.C89_false_more | E C Q |
| Verif.Amount.C89_error_partial | E C Q |
| Verif.Amount.C89_close_partial | E C Q |
| Verif.Amount.C89_exact_partial | E C Q |
| Verif.Amount.C89_whole_partial | E C Q |
| Verif.Amount.C89_false_shown | E C Q |
| Verif.Amount.C89_shown_partial | E C Q |
| Verif.Cmd.C90_transfer | E C Q |
| Verif.Cmd.C90_requested_is_typed | E C Q |
| Verif.Cmd.C90_transfer_confirmed | E C Q |
| Verif.Cmd.C90_sweep_confirmed | E C Q |
| Verif.Cmd.C90_dust_confirmed | E Q |
| Verif.Cmd.C90_transfer_done | E C Q |
| Verif.Cmd.C90_sweep_all | E C Q |
| Verif.Cmd.C90_sweep_below | E C Q |
| Verif.Cmd.C90_false_single | E C Q |
| Verif.Cmd.C90_false_single_nothing | E C Q |
| Verif.Cmd.C90_false_dropped | E C Q |
| Verif.Cmd.C90_false_dust | E Q |
| Verif.SignedSet.C91_signed_set | E C Q |
| Verif.SignedSet.C91_signed_set_no_transfers | E C Q |
| Verif.SignedSet.C91_honest_set_is_signed | E C Q |
| Verif.SignedSet.C91_record_order | E C Q |
| Verif.SignedSet.C91_false_record | E C Q |
| Verif.Acct.C92_opens | E C Q |
| Verif.Acct.C92_address_partial | E C Q |
| Verif.Acct.C92_false_view_key | E C Q |
| Verif.Acct.C92_false_network | E C Q |
| Verif.Acct.C92_saved_opens | E C Q |
| Verif.Acct.C92_password | E Q |
| Verif.Acct.C92_file | E |
| Verif.Acct.C92_device | E C Q |
| Verif.Prompt.C93_transaction_shown | E C Q |
| Verif.Prompt.C93_key_images_shown | E C Q |
| Verif.Prompt.C93_view_key_chosen | E C Q |
| Verif.Prompt.C93_served | E C Q |
| Verif.Prompt.C93_served_key_images | E C Q |
| Verif.Prompt.C93_served_view_key | E C Q |
| Verif.Prompt.C93_false_threads | E Q |
| Verif.Prompt.C93_false_lost | E C Q |
| Verif.Prompt.C93_view_key_busy | E Q |
| Verif.Start.C94_keeps | E C Q |
| Verif.Start.C94_keys_file | E C Q |
| Verif.Start.C94_watches_partial | E C Q |
| Verif.Start.C94_device_fails | E C Q |
| Verif.Start.C94_restart_partial | E C Q |
| Verif.Start.C94_false_password | E C Q |
| Verif.Start.C94_height_confirmed | E Q |
| Verif.Start.C94_height_typed | E Q |
| Verif.Start.C94_height_date | E Q |
| Verif.Start.C94_height_number_partial | E Q |
| Verif.Start.C94_false_height | E C Q |
| Verif.Start.C94_false_negative | E C Q |
| Verif.WalletProc.C95_command_partial | E C Q |
| Verif.WalletProc.C95_false_directory | E C Q |
| Verif.WalletProc.C95_passwords_partial | E C Q |
| Verif.WalletProc.C95_false_password | E C Q |
| Verif.WalletProc.C95_output_partial | E C Q |
| Verif.WalletProc.C95_standard_output_partial | E C Q |
| Verif.WalletProc.C95_false_output | E C Q |
| Verif.WalletProc.C95_false_error_output | E C Q |
| Verif.WalletProc.C95_false_last_line | E C Q |
| Verif.Scan.C96_sound | E C Q |
| Verif.Scan.C96_same_key | E C Q |
| Verif.Scan.C96_false_clear | E Q |
| Verif.Scan.C96_false_twice | E Q |
| Verif.Scan.C96_complete | E C Q |
| Verif.EdDsa.C97_check | E C Q |
| Verif.EdDsa.C97_secret | E C Q |
| Verif.EdDsa.C97_public_key | E C Q |
| Verif.EdDsa.C97_signed_is_valid | E C Q |
| Verif.EdDsa.C97_signed_reduced | E C Q |
| Verif.EdDsa.C97_nonce | E C Q |
| Verif.EdDsa.C97_two_signatures | E C Q |
| Verif.EdDsa.C97_false_malleable | E C Q |
| Verif.EdDsa.C97_false_small_order | E C Q |
| Verif.EdDsa.C97_affine_key | E C Q |
| Verif.EdDsa.C97_false_affine_sign | E |
| Verif.EdDsa.C97_affine_check | E C Q |
| Verif.EdDsa.C97_affine_accepts | E C Q |
| Verif.EdBack.C98_affine_add | E C Q |
| Verif.EdBack.C98_affine_sub | E C Q |
| Verif.EdBack.C98_affine_times | E C Q |
| Verif.EdBack.C98_base | E C Q |
| Verif.EdBack.C98_ietf_add | E C Q |
| Verif.EdBack.C98_ietf_times | E C Q |
| Verif.EdBack.C98_xrecover | E C Q |
| Verif.EdBack.C98_sqroot | E C Q |
| Verif.EdBack.C98_encode | E C Q |
| Verif.EdBack.C98_compress | E C Q |
| Verif.EdBack.C98_decode | E C Q |
| Verif.EdBack.C98_reencode | E C Q |
| Verif.EdBack.C98_decompress_partial | E C Q |
| Verif.EdBack.C98_false_decompress | E C Q |
| Verif.Sig.C99_schnorr | E C Q |
| Verif.Sig.C99_ring | E C Q |
| Verif.Sig.C99_mlsag | E C Q |
| Verif.Sig.C99_clsag | E C Q |
| Verif.Sig.C99_clsag_separate | E C Q |
| Verif.Sig.C99_linkable | E C Q |
| Verif.Sig.C99_range | E C Q |
| Verif.Sig.C99_false_torsion | E C Q |
| Verif.Bp.C100_sound | E C Q |
| Verif.Bp.C100_group | E C Q |
| Verif.Bp.C100_accepted | E C Q |
| Verif.Bp.C100_conserved | E C Q |
| Verif.Bp.C100_iff | E C Q |
| Verif.Msgs.C101_table | E C Q |
| Verif.Msgs.C101_monero | E C Q |
| Verif.Msgs.C101_unsendable | E |
| Verif.Msgs.C101_arrives | E C Q |
| Verif.Msgs.C101_state | E C Q |
| Verif.Msgs.C101_session | E C Q |
| Verif.Msgs.C101_garbage | E Q |
| Verif.Msgs.C101_false_failure | E C Q |
| Verif.Msgs.C101_false_call | E C Q |
| Verif.Msgs.C101_watch | E C Q |
| Verif.Sig.C102_row_accept_iff | E C Q |
| Verif.Sig.C102_row_complete | E C Q |
| Verif.Sig.C102_row_sound | E C Q |
| Verif.Sig.C102_accept_iff | E C Q |
| Verif.Sig.C102_complete | E C Q |
| Verif.Sig.C102_false_forged | E C Q |
| Verif.Euclid.C103_gcd | E C Q |
| Verif.Euclid.C103_modinv | E C Q |
| Verif.Euclid.C103_modinv_neg | E C Q |
| Verif.Euclid.C103_modinv_zero | E |
| Verif.Euclid.C103_mul_inverse | E C Q |
| Verif.Euclid.C103_mul_inverse_small | E Q |
| Verif.Euclid.C103_agree | E C Q |
| Verif.Ed.C103_xy_round | E C Q |
| Verif.Ed.C103_xy_point | E C Q |
| Verif.Ed.C103_ext_point | E C Q |
| Verif.Ed.C103_completed | E C Q |
| Verif.MsgConv.C104_to_device | E Q |
| Verif.MsgConv.C104_from_device | E Q |
| Verif.MsgConv.C104_from_device_flat | E Q |
| Verif.MsgConv.C104_back | E Q |
| Verif.MsgConv.C104_call | E Q |
| Verif.MsgConv.C104_closed | E |
| Verif.MsgConv.C104_unknown | E Q |
| Verif.MsgConv.C104_false_nested | E Q |
| Verif.MsgConv.C104_false_number | E Q |
| Verif.MultiExp.C105_eval | E C Q |
| Verif.MultiExp.C105_lists | E C Q |
| Verif.MultiExp.C105_function | E C Q |
| Verif.MultiExp.C105_added | E C Q |
| Verif.MultiExp.C105_sequential | E C Q |
| Verif.MultiExp.C105_false_size | E C Q |
| Verif.MultiExp.C105_merged_partial | E C Q |
| Verif.MultiExp.C105_false_merged | E C Q |
| Verif.ExtraEdit.C106_add_key | E C Q |
| Verif.ExtraEdit.C106_add_points | E C Q |
| Verif.ExtraEdit.C106_add_encoded | E C Q |
| Verif.ExtraEdit.C106_add_nonce_partial | E C Q |
| Verif.ExtraEdit.C106_false_nonce | E C Q |
| Verif.ExtraEdit.C106_nonce_limit | E |
| Verif.ExtraEdit.C106_remove | E C Q |
| Verif.ExtraEdit.C106_remove_bad | E C Q |
| Verif.ExtraEdit.C106_find | E Q |
| Verif.ExtraEdit.C106_payment_id | E C Q |
| Verif.ExtraEdit.C106_announced | E C Q |
| Verif.Token.C107_sign_undisturbed | E C Q |
| Verif.Token.C107_ki_undisturbed | E C Q |
| Verif.Token.C107_sign_order | E C Q |
| Verif.Token.C107_ki_released | E C Q |
| Verif.Token.C107_past_irrelevant | E C Q |
| Verif.Token.C107_others_change_nothing | E C Q |
| Verif.Token.C107_wrong_network | E C Q |
| Verif.Token.C107_false_view_key | E C Q |
| Verif.Sig.C108_commitment | E C Q |
| Verif.Sig.C108_range | E C Q |
| Verif.Sig.C108_range_hides | E C Q |
| Verif.Sig.C108_mlsag | E C Q |
| Verif.Sig.C108_anonymous | E C Q |
| Verif.Signer.C109_confirmed_payment_partial | E C Q |
| Verif.Signer.C109_false_lost | E C Q |
| Verif.Sig.C110_clsag | E C Q |
| Verif.Sig.C110_clsag_anonymous | E C Q |
| Verif.Sig.C110_ring | E C Q |
| Verif.Bp.C111_hidden | E C Q |
| Verif.Bp.C111_tests | E C Q |
| Verif.TestGen.C112_totals | E C Q |
| Verif.TestGen.C112_owned | E C Q |
| Verif.TestGen.C112_split | E C Q |
| Verif.TestGen.C112_false_inputs | E C Q |
| Verif.TestGen.C112_false_no_change | E Q |
| Verif.TestGen.C112_change_partial | E C Q |
| Verif.TestGen.C112_false_minor | E Q |
| Verif.TestGen.C112_false_index | E Q |
| Verif.TestGen.C112_false_subs | E C Q |
| Verif.TestGen.C112_false_fails | E Q |
| Verif.TestGen.C112_false_amount | E Q |
| Verif.Key.C113_one_transaction | E C Q |
| Verif.Key.C113_amount_keys | E C Q |
| Verif.Key.C113_transactions | E C Q |
| Verif.Key.C113_change | E C Q |
| Verif.Key.C113_false_small | E C Q |
| Verif.Key.C114_distinct | E C Q |
| Verif.Key.C114_table | E C Q |
| Verif.Signer.C115_pinned | E C Q |
| Verif.Signer.C115_secret | E C Q |
| Verif.Signer.C115_clash | E C Q |
| Verif.Signer.C115_broken | E C Q |
| Verif.Signer.C115_payment | E C Q |
| Verif.Signer.C115_ideal | E C Q |
| Verif.Signer.C115_masks | E C Q |
| Verif.Signer.C115_ideal_seal | E C Q |
| Verif.Rct.C116_range_bp | E C Q |
| Verif.Rct.C116_range_bp_made | E C Q |
| Verif.Rct.C116_owner_partial | E C Q |
| Verif.Rct.C116_shared_v2 | E C Q |
| Verif.Rct.C116_warning | E C Q |
| Verif.Rct.C116_false_amount | E C Q |
| Verif.Rct.C116_false_v2 | E C Q |
| Verif.HostAux.C117_count_partial | E C Q |
| Verif.HostAux.C117_announced | E C Q |
| Verif.HostAux.C117_once_partial | E C Q |
| Verif.HostAux.C117_none | none |
| Verif.HostAux.C117_false_repeated | none |
| Verif.HostAux.C117_false_standard | E Q |
| Verif.HostAux.C117_strip | E Q |
| Verif.Pb.C118_reads | E C Q |
| Verif.Pb.C118_roundtrip | E C Q |
| Verif.Pb.C118_unambiguous | E C Q |
| Verif.Pb.C118_typed_partial | E C Q |
| Verif.Pb.C118_false_negative | E Q |
| Verif.Pb.C118_false_flag | E |
| Verif.Pb.C118_false_characters | E Q |
| Verif.Creds.C119_generated | E C Q |
| Verif.Creds.C119_same_address | E C Q |
| Verif.Creds.C119_listing | E C Q |
| Verif.Creds.C119_listing_distinct | E C Q |
| Verif.Creds.C119_report | E C Q |
| Verif.Sig.C120_forms | E C Q |
| Verif.Sig.C120_too_large | E Q |
| Verif.Sig.C120_backend_partial | E C Q |
| Verif.Sig.C120_false_decode | E |
| Verif.Symbols.C121_resolved_partial | E C Q |
| Verif.Symbols.C121_marked | E C Q |
| Verif.Symbols.C121_false_last | E C Q |
| Verif.Symbols.C121_false_first | E C Q |
| Verif.Host.C122_file | E C Q |
| Verif.Host.C122_requests | E C Q |
| Verif.Host.C122_ends | E C Q |
| Verif.Host.C122_limits | E |
| Verif.Host.C123_request_partial | E |
| Verif.Host.C123_refused | none |
| Verif.Host.C123_false_text | E |
| Verif.Connect.C124_network | E C Q |
| Verif.Connect.C124_switch_partial | E C Q |
| Verif.Connect.C124_failed | E C Q |
| Verif.Connect.C124_reconnect | E C Q |
| Verif.Connect.C124_false_other | E C Q |
| Verif.Hd.C125_user_partial | E C Q |
| Verif.Hd.C125_refused | E Q |
| Verif.Hd.C125_distinct_users | E C Q |
| Verif.Hd.C125_false_public | E Q |
| Verif.Hd.C125_false_entropy | E Q |
| Verif.Bp.C126_in_place | E C Q |
| Verif.Bp.C126_fresh | E C Q |
| Verif.Bp.C126_two | E C Q |
| Verif.Bp.C126_second | E C Q |
| Verif.Bp.C126_prover | E C Q |
| Verif.Bp.C126_linear | E C Q |
| Verif.Bp.C126_linear_fresh | E C Q |
| Verif.Bp.C126_false_offset | E |
| Verif.Bp.C126_powers | E Q |
| Verif.Bp.C126_false_raw | E Q |
| Verif.Bp.C127_dup | E C Q |
| Verif.Bp.C127_op | E C Q |
| Verif.Bp.C127_scaled_partial | E C Q |
| Verif.Bp.C127_false_scaled | E C Q |
| Verif.Bp.C127_total | E Q |
| Verif.Bp.C127_ztwo | E C Q |
| Verif.Bp.C127_ztwo_static_partial | E C Q |
| Verif.Bp.C127_false_ztwo | E C Q |
| Verif.Bp.C127_generators_partial | E C Q |
| Verif.Bp.C127_false_generators | E C Q |
| Verif.MsgObj.C128_values_partial | E C Q |
| Verif.MsgObj.C128_copy | E Q |
| Verif.MsgObj.C128_false_copy | E |
| Verif.Bp.C129_get | E Q |
| Verif.Bp.C129_end | E Q |
| Verif.Bp.C129_write | E Q |
| Verif.Bp.C129_history | E Q |
| Verif.Bp.C129_false_before | E |
| Verif.Bp.C129_false_wrapped | E Q |
| Verif.Bp.C129_wrapped_partial | E Q |
| Verif.Bp.C129_two_partial | E C Q |
| Verif.Real.C130_each_partial | E C Q |
| Verif.Real.C130_job_partial | E C Q |
| Verif.Real.C130_honest | E C Q |
| Verif.Real.C130_together | E C Q |
| Verif.Real.C130_false_shared_source | E C Q |
| Verif.Real.C130_false_refused | E C Q |
| Verif.Pb.C131_stream | E Q |
| Verif.Pb.C131_count | E Q |
| Verif.Pb.C131_read_back | E C Q |
| Verif.Pb.C131_false_size | E Q |
| Verif.Regs.C132_program_partial | E C Q |
| Verif.Regs.C132_equal | E C Q |
| Verif.Regs.C132_false_invert | E C Q |
| Verif.Regs.C132_false_raw | E C Q |
