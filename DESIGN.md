# Formal model of stacks.rs in Lean 4

The source under study is `/repo` (crates `stacks` and `stacks_derive`). The model lives
in `lean/Verif`, built with `lake build` in `lean/`.

## Layout

| directory | content |
|---|---|
| `Verif/Model/*`  | the model, one Lean file per Rust file (Clarity's three files in one), every definition citing file and lines |
| `Verif/Spec/*`   | specifications the statements are written with: positional numerals, hexadecimal and base-32/58 alphabets, the SIP-005 layout and readers, grammars, finite maps, error relations |
| `Verif/Proofs/*` | helper lemmas |
| `Verif/Props/*`  | the property theorems `Cxx_...`, with `example`s beside them that meet their hypotheses, and the repository's own test vectors |
| `Verif/Concrete/*` | executable SHA-256, SHA-512/256, RIPEMD-160, SHA-512, HMAC, ECDSA over secp256k1 (with proofs that it satisfies `Secp.Lawful`), BIP 32 (with a proof of `Bip.Lawful`), and a toy lawful signature scheme: instances used by the examples and by the theorems that exhibit one misbehaving input |
| `Verif/Vectors*.lean` | the repository's own tests replayed on the model by kernel evaluation. They are tests of the model's faithfulness, not property theorems |

`seeded/LOG.jsonl` records the wrong programs the theorems were tested against.

## Modelling decisions

* **Results.** A Rust function returning `Result<T, E>` becomes a total Lean function into
  `Outcome E T`, with the three cases `ok`, `err` and `panic`. A panic is an explicit value,
  so "does not panic" is a theorem and every theorem that says `= .ok _` excludes a panic.
  Sources of panics that are modelled: slice and array indexing, `split_at`,
  `copy_from_slice` length mismatch, arithmetic overflow, explicit `panic!`/`unimplemented!`.
* **Arithmetic overflow** is modelled as a panic (the behaviour with overflow checks, which
  is what `cargo build`/`cargo test` do by default). In a release build without overflow
  checks the same additions wrap and shifts take their amount modulo the width: `Model/Release.lean` models the
  functions with such arithmetic, and those that call them, a second time (C107).
* **Integers.** `u8`, `u16`, `u32`, `u64` are Lean's `UInt8` ... `UInt64` with their real
  bit operations; `i128`/`u128` are `BitVec 128`. `usize` is modelled by `Nat` (64-bit
  targets; no collection reaches `2^64` elements). `Model/Target32.lean` models the functions
  that compute sizes from their input a second time for 32-bit targets (C109).
* **Bytes** are `List UInt8`; fixed arrays are lists with a length proof.
* **Strings** are `List Char` (Unicode scalar values, as Rust's `char`), with UTF-8 encoding
  and decoding taken from Lean core's verified `String.utf8EncodeChar` and
  `ByteArray.utf8Decode?`.
* **Trait objects.** `Box<dyn Clarity>` is the inductive type `CV` with one constructor per
  type of the crate implementing `Clarity` (`PostConditions` also implements it but is kept
  out of `CV`; so are types implemented by users of the crate; both are in the open types of `Model/Open`, C114). `Box<dyn SpendingCondition>`,
  `Box<dyn Payload>` and `Box<dyn Condition>` likewise are sums of the crate's own types.
* **Recursion.** The Clarity decoder is modelled with explicit fuel equal to the input
  length plus one, and a theorem says that every larger fuel gives the same result.
* **Cryptography** is abstract: the theorems hold for all functions with the right output
  sizes in place of SHA-256, SHA-512/256 and RIPEMD-160, and for all signature schemes
  satisfying the stated laws (`Lawful`: recovery of a signature made with a key gives that
  key's public key, compact serialisation round trips, ...). No hypothesis asks a hash to be
  injective; where a property would need it, the theorem exhibits the collision.
* **HTTP, serde, BIP-32/39** are parameters (arbitrary functions) of the wallet and RPC models.

## Trusted base

Lean's kernel, the axioms `propext`, `Classical.choice`, `Quot.sound` (nothing else; no
`native_decide`, no `sorry`, no added axiom), and the faithfulness of the model to the Rust
text, which was written by hand.

Parameters of the theorems (type classes; a theorem holds for every instance):

| class | stands for | laws assumed |
|---|---|---|
| `Hashes` | the digests of the `ring` and `ripemd` crates | none but the output sizes (in the types) |
| `Secp` | the `secp256k1` crate: keys, ECDSA with recovery, compact signatures | none, except where `Secp.Lawful` is a hypothesis: recovering a signature of a message gives the signing key's public key, the compact form of a signature reads back, serialization of public keys is injective |
| `Bip` | the `bip32`/`bip39` crates (C102–C104 and parts of C76, C87 are about the schemes themselves) | none, except where `Bip.Lawful` is a hypothesis: a derived key is a valid secret key |
| `Http` | `ureq` and the server | none: the server answers anything |
| `F64Bits` | `f64::to_bits` (C120 only) | none, except in `C120_received`: numbers of JSON are numbers (`NumbersAreNumbers`) |

The laws are met by a toy instance (`Concrete/ToySecp`), so no theorem holds vacuously because of
them, and they are *proved* of the real scheme: `Concrete/EcdsaLawful.realLawful` for ECDSA over
secp256k1 (primality of the field and group order by Pratt certificates, the executable point
arithmetic related to Mathlib's group law of the Weierstrass curve) and
`Concrete/Bip32Lawful.realBipLawful` for BIP 32. The executable scheme differs from the crates in
one place: the RFC 6979 nonce loop is tried 16 times and then falls back to the nonces 1 and 2 (so
that it is total without an assumption on HMAC); the crate loops on. With one of the 16 the signature is that of RFC
6979 (C123, with a published test vector). C76 restates the end-to-end
theorems for it with no law as hypothesis. Theorems that exhibit one concrete input use the real hash functions of
`Concrete/Sha2`, `Concrete/Ripemd`; that these are the functions of the standards is C106.

The vectors cover every unit test of the crate, the eight signed transactions in `/repo/tests` and
both tests of `/repo/tests/src/test_derive.rs`,
with one exception: the 500-byte round trip of `b58.rs` (too large for kernel evaluation). The 2048 iterations of
PBKDF2 for the seed of the phrase of the wallet tests are evaluated by the kernel in a form it is fast on
(`Concrete/Seed*`), proved equal to the other form (`Concrete/FastPbkdf`); so the theorems about wallets are applied
to that phrase with nothing assumed (`Props/WalletCases`).

The specification of a node (`Spec/Node`, used by C79 and C80) is not in `/repo`: it is SIP-005's
format and authorization check and Bitcoin's script encoding, written down independently of the
crate, with its own reader of Clarity values (`C43_value_reader`). It leaves out what depends on the chain (nonces,
balances, contracts; nonces are in the nodes of C108, C110 and C111). `Spec/Canonical` adds the order of tuple entries and any further rules as a
parameter (C112), `Spec/Names` the rules for names (C115), `Spec/Admission` those for amounts, fees and
addresses (C117), `Spec/Enforce` what is done with post-conditions after execution (C116), `Spec/Types` the
rules for types of values (C119); the limit on their size is left out.

Modelled, function by function: `crypto/{hex,c32,b58,hash}.rs`, `clarity/{mod,impl,macro}.rs`,
`transaction/{network,condition,payload,auth,base,signer,builder}.rs`, `wallet.rs`, `rpc.rs`,
`stacks_derive/from_tuple.rs` (as an interpreter of the generated code over struct descriptions).

Not modelled: `Debug` output other than that of Clarity values, hashes and post-conditions (on which `==`
of post-conditions rests), the text of errors of other crates, `Clone`, `Default`, `AsRef`,
`From`/`Into` and `IntoIterator` impls that only wrap or unwrap a field; the payloads of the error
variants wrapping errors of other crates; the decoders whose body is `unimplemented!()`
(`Transaction`, `Auth`, spending conditions, `PostConditions`); what
happens when memory or the stack is exhausted (the depth of recursion, the bytes written and the
room requested by the Clarity decoders are counted, C84-C86, and the steps of the Base58 and C32 codecs,
C95; elsewhere time and memory are not modelled); TLS, redirects and connection handling inside `ureq`; what
`serde_json` accepts beyond JSON that can be read in full (C105), how it reads and writes floats, and `serde`
beyond which fields are written and read; macro hygiene and the parsing of Rust syntax by `syn`.

## Plan per property

* **C01-C03** hex: model `hex.rs` over UTF-8 bytes; induction on the input.
* **C04-C07** c32: model the bit-buffer loops with real `UInt32`/`UInt16` operations; invariant
  relating the buffer to the number read so far; specification by `Nat.digits` with leading zeros.
* **C08-C12** c32check / addresses: on top of C04-C07 with an abstract double SHA-256.
* **C13-C17** Base58: long-division invariant; `58^1000 <= 256^733` bounds the buffer.
* **C18-C20** hashing: layout of preimages, injectivity by fixed widths; script layout by an
  independent script reader.
* **C21-C36** Clarity: structural induction on values, strong induction on input length for
  the decoder; independent length and well-formedness predicates.
* **C37-C40** payloads, **C41-C42** post-conditions, **C43** transactions: an independent
  SIP-005 reader inverts the encoder.
* **C44-C55** authorization and signing: state machine of the signer, invariants over all
  operation sequences.
* **C56-C58** builders and networks; **C59-C61** wallet as refinement of a finite map;
  **C62-C64** RPC with the HTTP agent as a parameter; **C65-C67** derive macro as an
  interpreter over struct descriptions.

* **C68** node info: as C63. **C69** text: a grammar as an inductive relation; the printer's output
  satisfies it and is unique. **C70**, **C71** errors: inductive relations "first failing part";
  structural induction for the encoder, strong induction on the input for the decoder; completion
  of truncated inputs by induction on the length.
* **C72**, **C73** the same for transactions and payloads. **C74** verification: inductive verdict
  relations, proved sound and exhaustive by induction on the fields. **C75** signing steps:
  decision tables, by cases. **C76** real signatures: number theory of ECDSA over Mathlib's
  elliptic curve group, then the abstract theorems instantiated.
* **C77**, **C78** equality: the `Debug` texts of values and conditions; delimiter-by-delimiter
  injectivity under a plainness condition, and colliding witnesses without it.
* **C79** scripts: Bitcoin's encoding of numbers as specification (`Spec/Node`), comparison of the
  leading and trailing instructions. **C80** acceptance: a node as a predicate on received bytes,
  stated without the crate's functions; equivalence through C43 (reading back) and C74
  (verification), then the signing flows. **C81** all or nothing: the same functions modelled again
  as sequences of reads and writes (`Model/InPlace`), refinement to the functional model.
* **C82** ECDSA: `Concrete/EcdsaOrder` counts the points of the curve (a multiple of the order, less
  than three times it, and without a point of order two), `Concrete/EcdsaRecover` characterises
  recovery; the textbook predicate `Spec.Ecdsa.Verifies` is then equivalent to recovery with some
  identifier. **C83** malleability: the twin signature (`Spec/Twin`) fits the same key.
* **C84** depth: the decoder is modelled with a depth limit whose exhaustion can be made any outcome,
  so "uses depth d" is "the outcome below d does not matter". **C85** work: `Model/Cost` repeats the
  encoders and decoders in a monad that counts appended bytes; erasing the count gives the
  functions of `Model/Clarity`. What is counted is `extend`/`push` onto encoding buffers, which
  dominates the other steps; comparisons, reference counting and moves are not counted. **C86**
  requested room: the argument of `Vec::with_capacity` as a function of the input.
* **C87** end to end: the wallet (C59-C63), the builders (C56, C57), signing, the wire format (C43),
  the node's acceptance (C80) and the broadcast composed into one statement (`Spec/EndToEnd`), over
  the interfaces and again with real ECDSA and BIP 32 (C82).
* **C88** error texts: the messages as functions of the errors (`Model/ErrorText`); injectivity by
  splitting at a character that cannot occur in a number, a byte list, a hash or an identifier.
* **C89** `HexIterator` as a state transformer (`Model/HexIter`), `hex_to_bytes` as the loop over it;
  induction on the string. **C90** the hash types (`Model/HashValue`): lexicographic order against the
  value of the numeral, digit by digit. **C91** the derived serializers (`Model/RpcJson`) against the
  field specification of C63.
  **C92**, **C93** the literal macros (`Model/Macro`): the rules as a function on token lists, tried in
  order; a big-step semantics of the expressions they accept and produce, in which code that does
  not compile has no value; determinism by induction on derivations, the value written by
  structural induction. Type checking is reduced to what the constructors ask of their arguments.
  **C94** the text of request bodies: the compact format of `serde_json` (`Model/JsonText`; a
  dependency, so the format is that of its documentation) against the grammar of RFC 8259 as a
  relation (`Spec/JsonText`). The grammar is proved unambiguous by mutual structural induction on
  derivations with the rest of the text as context; the order of members is left open.
* **C95, C96** work and length of Base58 and C32: the codecs once more in a monad that counts loop
  iterations (`Model/CodecCost`), proved to have the same results; the bounds by induction on the
  number of base-58 digits left (above) and of bytes left (below), and for C32 by the invariant that
  bits in and bits out balance. `buff.remove(0)` counts one step for each byte moved. Lengths
  from `58^1000 <= 256^733` and `256^100 <= 58^138`.
* **C97** equality of wallets: `==` of the derived `PartialEq` with `HashMap::eq` as its definition
  (equal length, each entry found in the other). The map after a history has distinct keys and looks
  up what the history determines, by induction on the history; then equal lookups are equal lengths
  by counting keys. That `bip32` compares extended keys by value is trusted.
* **C98** the crate's own error (`Model/CrateError`): every variant is transparent. The cause of an
  error (`Spec/CrateError.innermost`) forgets the wrappers; C88 gives injectivity inside each enum
  and first letters separate the enums.
* **C99** what a signature is bound to (`Props/Binding`): with the real ECDSA. The nonce point of a
  signature is determined by `r`, the recovery identifier and the parity, so a signature that recovers
  the same key for two messages has them congruent modulo the order; different keys of one account are
  a collision of explicit strings. Every exception names the two strings: a bare "there is a collision"
  would hold of any hash function.
* **C100** the sponsor's hash binds the origin's signatures: by induction from the end of the chain of
  hashes. The strings on the way have 49 and 98 bytes and the signing pre-image of a sponsored
  transaction has more, so chains of different lengths collide too.
* **C101** order of participants: the exact verdict (C74) of what a walk of the participants leaves,
  and injectivity of scripts (C20).
* **C102, C103** phrases (`Model/Mnemonic`, `Props/Mnemonic`): the parsing of `bip39` 2.0.0 with one
  language, bit by bit as the crate does it; the specification (`Spec/Mnemonic`) is one equation between
  numbers in base 2048, 256 and 2. The list of words is a parameter with the laws `WordList`, which are
  evaluated for the English list (`Concrete/Words`; its SHA-256 is that of the published file). Unicode
  normalisation is a parameter of which nothing is assumed. The crate's source is not in the sandbox:
  the model follows its published version. Counting the last words: the image of an injection.
* **C104** the derivation itself (`Spec/Bip32`, `Props/Bip32`): BIP 32 as relations between keys, over
  Mathlib's group of points; the executable derivation of `Concrete/Bip32` is shown to compute them, by
  induction on the path. HMAC, PBKDF2 and SHA-512 are relations too, so phrases and seeds are bounded by the
  length SHA-512 is defined for (2^124 bytes).
* **C105** replies and saved responses as text (`Model/JsonRead`, `Spec/JsonRead`, `Props/JsonRead`): a reader
  with the limits of `serde_json` (64-bit integers, 128 levels) is proved to accept exactly the documents of the
  grammar of C94 whose values can be read, by induction on its fuel in one direction and on the grammar in the
  other. `serde_json` reads more leniently what a type ignores (members without a field may nest deeper or hold
  numbers and strings that cannot be read), so the theorems about calls only assume that a body which this
  reader accepts is read as it says. How floats are read and written is a parameter.
* **C106** the digests (`Spec/HashFunctions`, `Spec/AddressText`, `Proofs/HashFunctions`): the standards over
  machine words (`BitVec`) with the padded message, the schedule and the constants as relations: the constants are
  given by inequalities that say they are the first bits of the roots of the n-th prime, the initial values of
  SHA-512/256 by SHA-512 itself. The executable digests compute with natural numbers; each step is shown to be the
  step over words, the chain by induction on the blocks, and the constants are checked against the inequalities
  (a complete table). Messages are bounded by the length field of the standard.
* **C107** the functions with overflowing arithmetic are modelled again with wrapping arithmetic. The codecs are shown
  equal to the checked ones by invariants of their loops (bits carried below 5 or 8, remainders below 58). For several
  keys the exact verdict is a relation with the count modulo 256 and both numbers of the script modulo 256;
  agreement with the checked build wherever that does not panic is a case analysis of the two exact verdicts, and
  sequences of calls follow by induction.
* **C108** payments through a node (`Spec/Payments`, `Props/Payments`): nodes are state machines, of which is assumed
  what an honest node does for one account; the client program of the README is written over the modelled API. One
  payment composes C68, C56/C57, C62/C63, C45/C46, C80 and C43; any number of them by induction over the orders.
* **C109** 32-bit targets (`Model/Target32`, `Props/Target32`): the functions that add or multiply lengths taken from
  their input are modelled again with sizes below `2^32`. Decoders are shown equal by induction on the depth; what the
  loop of `b58_decode` leaves in a buffer of any size is the number modulo `256^size`, and `256^732 <= 58^1000` shows
  that the wrapped size is always too small. Vectors growing beyond the address space are not modelled.
* **C110** schedules (`Spec/Schedule`, `Proofs/Schedule`, `Props/Schedule`): a transition system of any number of
  programs, each at one of five stages, and one node; events are a request with its answer, a request whose answer is
  lost, a broadcast that does not arrive for now, its arrival (possibly again), and a restart. The code between the requests is that of the model (address, build, estimate_fee, set_fee, sign,
  broadcast); of the node is assumed what `Strict` says, and that one is shown to exist. An invariant over the events of
  a schedule gives safety; nonces are compared with the count of the account's accepted transactions.
* **C111** sponsored payments (`Spec/Sponsored`, `Props/Sponsored`): the client program of C108 with two accounts. The
  builders panic for sponsored transactions, so the caller makes the authorization themself; everything else is the
  code of the model. The fee question is asked with the origin's signature and a fee of zero for the sponsor; the
  length stays the same because both conditions have one signature. Of the node is assumed what `Counting` says, and
  one such node is shown to exist. A list of payments is done by induction with the counts of all accounts as state.
* **C112** the order of a tuple's entries (`Spec/Canonical`, `Proofs/Canonical`, `Props/Canonical`, `Props/Reader`): a
  node that reads tuples into maps ordered by name and checks signatures against its own serialisation. Its acceptance
  of a transaction is shown equivalent to acceptance, by the node of C80, of the transaction with sorted tuples and the
  same signatures (`C112_sees_sorted`); for ascending tuples sorting is the identity; for others C44 shows that
  what is signed differs, and C99 that the signature would have to fit both. The node's reader of Clarity values is
  written without the crate's decoder, and shown to read exactly the well-formed values (`C43_value_reader`). That the
  reference node is such a node is not in /repo and is taken from its documentation and source as commonly known; the
  theorems hold of any node as specified.
* **C113** read-only calls through a node (`Spec/ReadOnly`, `Props/ReadOnly`): what a request asks is specified from
  method, path and JSON text alone: the path is what an HTTP library makes of a URL (cut at `?` or `#`, some characters
  escaped, which ones is arbitrary), the text is read by the grammar of C94, the arguments by the reader of C43. The
  request of `read_only` is then shown to ask one thing, by computing segments of the path; the reply goes through C105.
  Not described: segments of dots, blanks at the ends of URLs, and how the address of the node is resolved.
* **C114** values, post-conditions and payloads of other implementations (`Model/Open`, `Spec/Open`, `Proofs/Open`,
  `Props/Open`, `Props/OpenBinding`): the traits `Clarity`, `Condition` and `Payload` are public, so the encoders, the signer and the
  verifier are modelled a second time over types that also hold values of other implementations, shown by the answers
  of their methods. Encoding is specified as a list of pieces; transactions with the crate's parts are shown to behave
  as in the closed model (lockstep of the two signers), and the signing theorems C47, C49 and C50 are proved again for
  parts that write any bytes. Assumed of other implementations: their methods answer the same at every call and do
  not share state with the crate.
* **C115** names (`Spec/Names`, `Props/Names`): the network's rules for names and texts as a predicate on transactions,
  put in for the rules of C112; acceptance of what the builders made is reduced to it. The rules are taken from the
  reference node as commonly known, and it has more (types of list entries, depth of values, sizes).
* **C116** enforcement (`Spec/Enforce`, `Props/Enforce`): what an execution takes from accounts is arbitrary; the node
  reads the conditions from the bytes and compares. Reduced to the conditions of the transaction by C43.
* **C117** admission (`Spec/Admission`, `Props/Admission`): the node's rules about networks, amounts, fees and
  addresses as a predicate on transactions, put in for the rules of C112 together with those of C115; what remains is
  put in terms of the builders' arguments, with the number of bytes computed.
* **C118** derived orders (`Model/Orders`, `Spec/Orders`): every derived `Ord` as a comparison field by field, against the
  dictionary order of a key of numbers; induction on lists for texts and fields, total order from the keys. What `derive`
  generates (fields in order of declaration, variants by discriminant) and the order of `secp256k1::PublicKey` (that of
  the compressed bytes) are trusted. For the partial orders of the fee estimates see C120.
* **C119** types (`Spec/Types`, `Props/Types`): the relation between values and types, declaratively (no inference); the
  rules as an instance of C112's; by induction on values, nesting is bounded by that of the type, and parts of typed values
  are typed.
* **C120** comparing fee estimates (`Model/FeeOrder`, `Spec/FeeOrder`): the derived `PartialEq` and `PartialOrd`, with an
  `f64` known by its 64 bits and compared as integers in units of 2⁻¹⁰⁷⁴, against the rational value IEEE 754 gives the
  bits; induction on the lists. That `f64` is compared as IEEE 754 says, and that `serde_json` yields no value that is
  not a number (`NumbersAreNumbers`, an explicit hypothesis of `C120_received`), are trusted.
* **C121** structs from contracts (`Spec/StructAnswer`): C113 and C65 put together, through the steps a caller takes from
  the answer's text to the struct; per type of field, what of the tuple is left in the struct.
* **C122** unreported mistakes: C117 for all networks at once (letters and versions of two networks are never the same),
  and C72 with C75 for conditions. The examples beside the theorems are those of the README, for every key and fee.
* **C123** deterministic signatures (`Spec/Rfc6979`): RFC 6979 as a relation on its states `K`, `V`; the loop of
  `Concrete/Ecdsa.sign` runs through the same states (induction on the attempts); ECDSA with a given nonce as an
  equation modulo the order. A repeated nonce: two linear equations in the key. Digests from the order on (one in
  2^128) are left out: versions of the C library differ in whether they reduce them before the nonce is derived.
* **C124** which calls panic (`Model/Api`, `Spec/CutShort`, `Spec/Panics`): `Api` lists the functions that return a
  `Result` or can panic with their arguments (72 of them), `PanicsOn` the calls that panic, in terms of strings, bytes,
  verdicts and numbers only; one theorem says that the two agree. `CutShort` describes the bytes that end too early
  (compare `DecodeFails` of C71). Derived `TryFrom`s are covered by C65.
* **C125** which error each call reports (`Model/Api`, `Spec/Failures`): `Api.Reports` is the error of the model of each
  call, `FailsWith` lists the 80 ways in which a call fails, with the error; one theorem says that the two agree, two
  more that a call has at most one error and not an error and a panic. `Reported` leaves out the variants that stem
  from conversions: those of C32 and Base58 and of signatures are in the model and are shown not to fail; the two of
  arrays (impl.rs:921, payload.rs:117) convert a slice of the right length and have no error in the model, and the
  variants `Secp256k1` and `TryFromInt` of transactions are not constructed by any line of the crate.
* **C126** which strings are addresses (`Spec/Address`): `IsAddress` says it in terms of the value of a digit sequence,
  with no function of the model; decoding, parsing and writing are each shown equivalent to it or to `addressString`.
  The specifications of Clarity values, post-conditions, errors and payments say "address" in these terms, so that
  a change of the model's address functions does not change what they claim.
* **C127** schedules of payments of all kinds (`Spec/Mixed`, `Proofs/Mixed`, `Props/Mixed`): the transition system of
  C110 with programs of three kinds, which first collect the nonces of all their accounts, and a node (`Fair`) that counts
  for each account the transactions it takes part in. The three ways to prepare a transaction reuse C80, C47 and C46; from
  there on the argument is the same for all kinds: an invariant over single events, then induction over the schedule.
* **C128** what every call gives back (`Model/ApiValue`, `Spec/Returns`): `Api.outcome` is the whole outcome of the model
  of each of the 72 functions of C124, with the results of all of them in one type. `GivesBack` lists the calls that
  return a value, with the value, in terms of the same specifications as `PanicsOn` and `FailsWith`. One theorem says
  that the three lists are the outcome; that they are disjoint and complete follows, as a statement about the lists
  alone. `get_account` changes the wallet: the wallet afterwards is part of its value.
* **C129** ids of transactions (`Spec/TxId`): `C129_id_exactly` is C43's layout under SHA-512/256; `C129_identifies` and
  `C129_same_id` are injectivity of the encoding (C43) up to a collision, the second for all transactions, well-formed
  or not, and `C129_history` applies it to the accepted lists of C127; `C129_reader_agrees` follows the padded memo; `C129_sign` and `C129_not_the_signing_hash` compare bytes before
  and after signing or clearing; `C129_id_is_malleable` is C83's twin with its id, over the real curve;
  `C129_broadcast_reply` for a node that answers as the reference node does, as commonly known.
- **C130** `Spec/Separate.lean`, `Props/Separate.lean`: no assumption that the hash functions have no collisions; each
  theorem says which collision a meeting would be (`LeftHalvesMeet`, `RightHalvesMeet`, `SeedsMeet`, `KeyHashesMeet`).
  `C130_children` and `C130_seeds` over BIP-32 as specified, for every path; `C130_accounts`, `C130_wallets` and
  `C130_words` over the calls of the crate. A child key is `left + key mod n` with `left < n`, so equal keys mean equal
  left halves; a master or child chain code is a right half, so equal chain codes go back to the seeds.
- **C131** `Spec/SponsorMembers.lean`, `Props/SponsorMembers.lean`: an invariant of every call on the signer says that the
  sponsor is the one set, with signatures and nothing else added; verification recovers one key for each, so a list of
  as many keys as there are signatures has the address (`C131_sponsor_needs_all`, `C131_never_completed`:
  the keys are those recovered from the signatures, and the scripts of the two lists collide, `AccountsCollide`). `C131_all_members_sign` and `C131_by_hand` are C53's flow with other lists of fields.
- **C132** `Spec/Relay.lean`, `Props/Relay.lean`: `relay` makes a new signer for each group of participants and sets its
  hash; `C132_relay` shows that to be `walk` over all of them, by an invariant of the signer (all but its hash is as `new`
  makes it), and `C132_relay_verifies` is C50 after it. What goes wrong without the hash (`C132_start_anew`,
  `C132_new_for_sponsor`, `C132_start_anew_sponsor`) is shown on the real curve: the recovered keys of the second group
  are a function of the hash, and a signature is good for a key over one digest only (C99).
- **C133** `Props/SponsorFee.lean` (rules in `Spec/Admission.lean`): C80 and C112 give the acceptance of what `new_sponser`
  and `sign_sponsor` make, up to the rules; the rules are rewritten in terms of the transfer or call. `C133_flow` is the
  whole way for an origin of one key, `C133_set_fee` says which fee `set_fee` sets.
- **C134** `Props/SeveralKeysFee.lean` (rules in `Spec/Admission.lean`): C80 and C112 give the acceptance of what the members
  make, up to the rules; lengths are counted field by field. `C134_fee_before_signing` and `C134_estimate_short` compare
  the transaction before and after it is signed.

No listed property is outside the model, and none is proved only in part.

## Findings

Places where the code does not do what a user might expect. Each is proved, with a concrete
witness or as an exact characterisation, in the theorem named.

1. `b58_encode` of a non-empty all-zero input writes one `1` too many, so it does not decode back
   (`C13_b58_encode_zeros`, `C14_b58_roundtrip`).
2. `b58_decode` panics on a character above U+00FF (`C15_b58_decode_bad`); `base58check_decode`
   panics on inputs that decode to fewer than five bytes (`C17_base58check_decode_panics`).
3. `c32check_encode` panics for versions of 32 and more (`C08_c32check_encode_panics`).
   `c32_address_decode` neither checks the version nor that the hash has 20 bytes, so
   `Address::from_str` panics on e.g. `SP820DJMP8B0` (`C12_address_from_str`), and so do contract
   calls built with such an address (`C57_ok_iff`).
4. `c32_decode` accepts lower case and the letters O, L, I; decoding and encoding again only gives
   back the canonical spelling (`C07_c32_reencode`).
5. The Clarity decoders panic on truncated input, and only then (`C26_truncated_panics`,
   `C71_panic_only_when_truncated`). Trailing bytes are ignored (`C25_decode_ignores_trailing`).
   `StringUtf8::decode` does not look at the identifier (`C27_strUtf8_decode_ignores_identifier`).
   A decoded value may not be encodable (`C24_decoded_value_may_not_encode`), and an encodable one
   may not decode (`C21_encodable_but_not_roundtrip`).
6. `==` on Clarity values compares the printed forms, which collide for strings, names and keys
   with delimiters in them (`C31_distinct_values_can_compare_equal`).
7. `Tuple::insert` of an existing key adds a shadowed entry (`C33_insert_shadowed`); the encoder
   keeps insertion order, whereas nodes expect keys in order (`C70_tuple_not_sorted`).
8. `Auth::verify` of a standard authorization always succeeds without looking at the signature
   (`C54_standard_always_ok`, `C54_accepts_wrong_signature`). `set_fee`/`set_nonce` act on the
   origin only (`C45_set_fee`). `verify` of a multisig condition accepts more signatures than
   required (`C51_verified_enough`) and its counter overflows at 256 (`C55_verify_panics`).
   Signing does not check that the key belongs to the signer (`C47_same_hash160`).
   `hash_p2sh` panics for more than 175 required signatures or keys modulo 256
   (`C20_hash_multisig_panics`).
9. A decoded token transfer has its memo padded with NULs (`C38_transfer_roundtrip`), memos that
   differ in trailing NULs have the same bytes (`C40_memo_padding_is_lost`); a contract call whose
   names have 129 to 255 bytes is refused on decoding (`C39_long_name_refused`).
10. The builders panic when asked for a sponsored transaction (`C56_sponsored_panics`).
11. Derived structs: a missing key is `None` for `Option<String>` but an error for `Option<i128>`;
    a value of the wrong type is `None` (`C67_option_i128`, `C67_option_string`); the `response`
    attribute is ignored except on integers (`C66_response_only_for_integers`).
12. A read-only reply with `okay: false` that has a `result` field is reported as a success
    (`C63_read_only`); address parts are not escaped in URLs, so different calls can share a URL
    (`C64_url_determines`).
13. `==` on post-conditions compares `Debug` texts and `==` on contract calls compares printed
    arguments; both equate values with different bytes (`C77_equal_but_different`,
    `C78_equal_but_different`).
14. `clarity!(Buffer)` without an argument (macro.rs:16) expands to the tokens `@empty, Buffer`
    instead of invoking the macro again, so it does not compile (`C92_empty_buffer`). Inside the other
    rules the macro calls itself as `clarity!` without `$crate`, so `stacks_rs::clarity!(List, ...)`
    does not compile unless `clarity` is imported too (`C92_by_path`); `post_condition!` has no such
    restriction (`C93_every_list`).
15. Multi-sig scripts are Bitcoin's only for 1 to 16 required signatures and keys
    (`C79_script_iff`); for other numbers, e.g. 1 of 17, the crate computes and verifies a signer
    hash that no node arrives at (`C80_large_script_refused`). The crate's verification also accepts
    extra signatures, condition codes of the wrong kind and recipients that are no accounts, which
    a node refuses (`C80_extra_signatures_refused`, `C80_misfit_refused`).
16. Signatures are malleable: verification accepts signatures with a high `s`, so every verified
    transaction has a second one with other bytes (`C83_transaction`, `C83_multisig`, `C83_sponsored`). It follows
    from accepting whatever `secp256k1` recovers a key from; users must not take the hash of the
    bytes for an identity fixed by the signer.
17. Decoding is cubic in the worst case and recurses without limit (`C85_cubic`,
    `C84_depth_unbounded`): containers call `len()` on each element they have just decoded, which
    encodes it again at every level. A few thousand bytes of nested lists from an untrusted node
    cost hundreds of millions of byte copies (5001 bytes: 833,833,000), and enough nesting
    overflows the stack, which aborts the process.
18. `FnArguments::decode` allocates what the four count bytes say before reading an argument
    (`C86_unchecked`): four bytes `ff ff ff ff` ask for 64 GiB.
19. The two checksum errors are the wrong way round relative to each other: C32 says "expected" of
    the computed checksum, Base58 says "expected" of the four bytes in the input and "received" of
    all 32 bytes of the computed digest (`C17_base58check_decode_exact`,
    `C09_c32check_checksum_decides`). The message for a bad character does not say which alphabet was
    meant (`C88_alphabets`).
20. `decode` of transactions, authorizations, spending conditions and post-conditions is
    `unimplemented!()`: these types implement `Clarity`, so it compiles, and panics on every input
    (`Transaction.decode`, `postConditionsDecode`; read off the source).
21. `HexIterator` is public and can be continued after an error, but a bad character in first position
    shifts all later pairs by one, and the digit left over at the end is dropped without an error
    (`C89_after_error`). `MessageSignature::new` and `Hash160::new` panic on a wrong length
    (`C90_new`).
22. Without overflow checks the overflow panics of finding 8 become wrong answers, none of which lets a transaction verify
    with too few signatures (`C107_verified_enough`): accounts that require 176 or more signatures are made with a
    script that pushes another number (`C107_new`), verify in the crate (`C107_flow`) and are refused by a node
    (`C107_large_refused`); 256 good signatures count as none (`C107_wrapped_count`); at 65536 signatures the
    refusal of further ones lapses (`C107_oversign`).
23. `estimate_fee` of a transaction of several keys, asked before it is signed (the fee is covered by the signatures),
    understates the length by 66 bytes for each signature and 34 for each other key (`C108_pay_together`); for one key
    it is exact (`C108_pay`).
24. On 32-bit targets without overflow checks `b58_decode` silently returns wrong bytes for texts of 5.8 million
    characters or more (`C109_b58_decode_wrong`), with overflow checks it panics (`C109_b58_decode_checked`);
    `FnArguments::decode` panics on a count of `2^28` or more before reading an argument (`C109_fn_args`).
25. After a broadcast whose answer got lost the crate offers no safe way on: asking for the nonce and paying again pays
    twice, and sending the same transaction again is answered with a refusal although it is accepted
    (`C110_lost_answer`). Callers must keep the signed transaction and compare its identifier.
26. `Tuple` encodes its entries in the order given and neither sorts them by name nor reports repeated names. A node
    that keeps tuples ordered by name hashes the sorted form, so a transaction with a tuple in any other order is signed
    and verified by the crate and refused by the node (`C112_other_order_refused`, and the example after it with the real
    scheme). Callers must give entries in ascending order of their names' bytes.
27. `read_only` puts the function's name into the URL as it is. Names in contracts may have `?` and `/` in them:
    `owner?` calls the function `owner`, whose result is returned as if nothing had happened (`C113_question_mark`),
    and a name with a slash or a node URL that ends in one reaches no function (`C113_slash`, `C113_trailing_slash`).
    Results come with `0x` in front, which `hex_to_bytes` refuses (`C113_prefix`): callers must remove it.
28. `PostConditions` is a `Clarity` value but writes no type identifier: inside another value it is encoded without an
    error and read back as something else, an integer made of its first bytes (`C114_post_conditions_misread`).
    Post-conditions use the principal that `as_any` of an address shows, payments the bytes that its `encode` writes;
    for a value of another implementation these may differ (`C114_shown_principal`).
29. No name is checked: contract calls to `my pool`, to a contract without a name or with one of 41 characters are built,
    signed, verified and encoded, and refused by the network (`C115_call`, `C115_transfer`).
30. The documentation of `PostConditionMode` says that `Allow` turns off all post-conditions. It does not: they are
    checked in both modes, and `Deny` adds that whatever no condition mentions must stay (`C116_enforced`,
    `C116_allow_still_checks`). The documentation of `HasNot` says that the account does not own the item; the network
    requires that it was sent away by the transaction. With the builders' defaults nothing is checked
    (`C116_default_keeps`).
31. The builders' default fee, zero, is refused by the network (`C117_default_fee_refused`); so are transfers of nothing,
    to oneself, to addresses of the other network, and transfers with post-conditions, for which `STXTokenTransfer` has
    a field (`C117_transfer`). All are built and signed without an error.
32. Lists of values of different types and values nested more than 32 deep are built, signed and encoded, and refused by
    the network (`C119_refused`).
33. A fee estimate with a rate that is not a number is not equal to itself (`C120_self`), and estimates with rates 0.0
    and -0.0 are equal although their bits differ (`C120_estimate`). The first never happens to answers of a node, as
    JSON writes only numbers (`C120_received`).
34. A struct made from a tuple does not tell some tuples apart: a `String` field takes any value and keeps its text, in
    which a principal `1` and an integer 1 are the same, and `Option<i128>` takes every value but an integer in a `some`
    for `None`, also `(some u3)` (`C121_says`).
35. The README's transfer and contract call name a testnet address and the mainnet, and no fee: both are signed, and
    taken by no node, with any fee (`C122_transfer_other_network`, `C122_call_other_network`, `C122_call_default_fee`).
    The address in its post-conditions, `ST000000000000002AMW42H`, has a wrong checksum, so no transaction with
    them can be signed (`C122_condition_without_address`). Its list of values of all kinds is written by `hex`, but is
    no argument for any function.
36. `broadcast` returns a node's answer as text. The reference node answers with a string of JSON, so what the caller gets
    as the id begins and ends with a quotation mark, is not what `bytes_to_hex` makes of `Transaction::hash`, and is
    refused by `hex_to_bytes` (`C129_broadcast_reply`).
37. The signer can put the keys of absent members into the origin (`append_origin`), not into the sponsor. An m-of-n
    sponsor with m < n cannot be completed with it (`C131_never_completed`); the caller has to switch the check of the
    number of signatures off and let all sign, or modify the condition by hand (`C131_all_members_sign`, `C131_by_hand`).
    A sponsored transaction where m = n is not affected (`C53_multisig_sponsor`).
38. `TransactionSigner::new` begins at the first hash whatever signatures the transaction holds already, and
    `new_sponser` at the origin's. A member who makes a signer of their own for a transaction others have signed gets no
    error, and a transaction that does not verify (`C132_start_anew`, `C132_start_anew_sponsor`); the same for a sponsor
    who uses `new` in place of `new_sponser` (`C132_new_for_sponsor`). Setting the public field `hash` to the one at which
    the signer before ended is what works (`C132_relay`).
39. `estimate_fee` sends the length of the transaction as it is. For an account of n keys that has not signed it is short
    by 34 bytes for each key and 32 for each signature (`C134_estimate_short`), and the fee cannot be changed once it is
    signed. A fee of one microSTX for each byte of the unsigned transaction is refused (`C134_fee_before_signing`).
