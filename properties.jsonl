{"id": "C01", "title": "Hex round trip", "statement": "hex_to_bytes(bytes_to_hex(b)) returns Ok(b), and bytes_to_hex(b) consists of exactly two lower-case hexadecimal digits per byte.", "quantifier": "every byte sequence of every length", "why_tests_cant": "the input space is unbounded; a sample of byte strings cannot exclude a bad nibble or a length-dependent fault", "anchors": ["stacks/src/crypto/hex.rs:bytes_to_hex", "stacks/src/crypto/hex.rs:hex_to_bytes", "stacks/src/crypto/hex.rs:HexIterator"]}
{"id": "C02", "title": "Hex decoding accepts exactly the hex strings", "statement": "hex_to_bytes never panics. It returns Ok exactly when the string has even byte length and every character is one of 0-9a-fA-F, and the bytes are then the values of consecutive digit pairs. A string of odd byte length gives UnpaddedHex carrying that string and its byte length whatever its characters, and any other string gives BadChar.", "quantifier": "every Unicode string", "why_tests_cant": "rejection has to be total over all Unicode strings, including multi-byte characters whose bytes straddle digit pairs", "anchors": ["stacks/src/crypto/hex.rs:HexIterator::new", "stacks/src/crypto/hex.rs:HexIterator::next", "stacks/src/crypto/hex.rs:hex_to_bytes", "stacks/src/crypto/hex.rs:Error"]}
{"id": "C03", "title": "Hex re-encoding is lower-casing", "statement": "If hex_to_bytes(s) succeeds then bytes_to_hex of the result is s with its letters A-F lower-cased.  So two strings decode to the same bytes only if they differ in letter case alone.", "quantifier": "every Unicode string accepted by hex_to_bytes", "why_tests_cant": "needs the inverse direction for all accepted strings of any length", "anchors": ["stacks/src/crypto/hex.rs:bytes_to_hex", "stacks/src/crypto/hex.rs:hex_to_bytes"]}
{"id": "C04", "title": "c32_encode computes base 32 with preserved leading zeros", "statement": "c32_encode never fails and never panics. Its result is one '0' per leading zero byte followed by the base-32 digits, most significant first and without leading zero digit, of the big-endian number the bytes denote, written in the alphabet 0123456789ABCDEFGHJKMNPQRSTVWXYZ.", "quantifier": "every byte sequence of every length", "why_tests_cant": "the bit-buffer loop carries state across the whole input, so correctness depends on every length modulo 5 and every carry pattern", "anchors": ["stacks/src/crypto/c32.rs:c32_encode", "stacks/src/crypto/c32.rs:C32_ALPHABET"]}
{"id": "C05", "title": "c32 round trip", "statement": "c32_decode(c32_encode(b)) returns Ok(b), including leading zero bytes and the empty input; hence c32_encode is injective.", "quantifier": "every byte sequence of every length", "why_tests_cant": "unbounded inputs; a fault may need a particular length, carry or leading-zero count", "anchors": ["stacks/src/crypto/c32.rs:c32_encode", "stacks/src/crypto/c32.rs:c32_decode"]}
{"id": "C06", "title": "c32_decode accepts exactly C32 strings, and says what is wrong otherwise", "statement": "c32_decode never panics. It returns Ok exactly when every character is in the C32 alphabet or one of the accepted aliases (lower case, O/o for 0, I/i/L/l for 1). A string with a non-ASCII character gives BadInput; otherwise the error is BadChar with the rightmost offending character.", "quantifier": "every Unicode string", "why_tests_cant": "must hold for all strings including non-ASCII; which of several bad characters is reported depends on iteration order", "anchors": ["stacks/src/crypto/c32.rs:c32_decode", "stacks/src/crypto/c32.rs:C32_BYTE_MAP", "stacks/src/crypto/c32.rs:Error"]}
{"id": "C07", "title": "c32_decode computes the number a C32 string denotes", "statement": "When c32_decode succeeds the result is one zero byte per leading zero digit followed by the minimal big-endian bytes of the base-32 number; re-encoding gives the canonical spelling of the input (upper case, aliases resolved). Two strings decode to the same bytes exactly when they have the same canonical spelling.", "quantifier": "every string accepted by c32_decode", "why_tests_cant": "quantifies over all strings; the bit accumulator may drop or duplicate bits only for some lengths", "anchors": ["stacks/src/crypto/c32.rs:c32_decode", "stacks/src/crypto/c32.rs:c32_encode"]}
{"id": "C08", "title": "c32check round trip", "statement": "For every payload and every version below 32, c32check_decode(c32check_encode(payload, version)) returns Ok((payload, version)). For version 32 and above c32check_encode panics.", "quantifier": "every payload byte sequence and every version byte", "why_tests_cant": "unbounded payloads; also ranges over the hash function's behaviour", "anchors": ["stacks/src/crypto/c32.rs:c32check_encode", "stacks/src/crypto/c32.rs:c32check_decode"]}
{"id": "C09", "title": "c32check_decode accepts only genuine checksummed strings", "statement": "If c32check_decode(s) returns Ok((payload, version)) then version < 32 and the canonical spelling of s is exactly c32check_encode(payload, version): the embedded four bytes are the double-SHA256 checksum of version and payload. In particular any string whose checksum bytes differ is rejected with BadChecksum carrying the computed and the embedded checksum.", "quantifier": "every Unicode string", "why_tests_cant": "rejection of every corrupted string is a statement over all strings", "anchors": ["stacks/src/crypto/c32.rs:c32check_decode"]}
{"id": "C10", "title": "c32_address: version whitelist, shape and round trip", "statement": "c32_address succeeds exactly for the versions 20, 21, 22 and 26, otherwise returns UnknownAddressVersion(version). An address starts with 'S' and the version letter M, N, P or T, and c32_address_decode of it returns exactly the bytes and version it was built from, so distinct (bytes, version) pairs have distinct addresses.", "quantifier": "every byte sequence and every version byte", "why_tests_cant": "every hash and version; injectivity is a relation between all pairs of inputs", "anchors": ["stacks/src/crypto/c32.rs:c32_address", "stacks/src/crypto/c32.rs:c32_address_decode"]}
{"id": "C11", "title": "c32_address_decode never panics and classifies its errors", "statement": "c32_address_decode returns Ok or Err for every string: strings not starting with 'S' or of at most five bytes give BadAddress with the string; a non-ASCII character gives BadInput; a character outside the alphabet gives BadChar; fewer than four decoded bytes BadInput; a wrong checksum BadChecksum.", "quantifier": "every Unicode string", "why_tests_cant": "panic freedom over all strings, in particular byte-index slicing of multi-byte strings, cannot be sampled", "anchors": ["stacks/src/crypto/c32.rs:c32_address_decode", "stacks/src/crypto/c32.rs:c32check_decode"]}
{"id": "C12", "title": "Address::from_str panics exactly on checksum-valid strings whose payload is not 20 bytes", "statement": "Address::from_str(s) fails with c32_address_decode's error when that fails; when the payload has 20 bytes it returns the address with that hash and version; otherwise, although the checksum is valid, it panics.", "quantifier": "every Unicode string", "why_tests_cant": "the panicking inputs are a sparse infinite set that no sample hits", "anchors": ["stacks/src/crypto/c32.rs:Address::from_str", "stacks/src/crypto/hash.rs:Hash160::new"]}
{"id": "C13", "title": "b58_encode computes base 58 with one '1' per leading zero byte", "statement": "b58_encode terminates without panicking. For data with a non-zero byte (and for empty data) the result is one '1' per leading zero byte followed by the base-58 digits of the big-endian number. For non-empty all-zero data it emits one '1' more than there are bytes.", "quantifier": "every byte sequence of every length", "why_tests_cant": "long division over unbounded inputs; the all-zero exception is a family of inputs of every length", "anchors": ["stacks/src/crypto/b58.rs:b58_encode", "stacks/src/crypto/b58.rs:B58_ALPHABET"]}
{"id": "C14", "title": "b58 round trip", "statement": "b58_decode(b58_encode(b)) returns Ok(b) exactly when b is empty or contains a non-zero byte; for b = n>0 zero bytes it returns n+1 zero bytes.", "quantifier": "every byte sequence of every length", "why_tests_cant": "needs the arithmetic fact that the buffer of len*733/1000+1 bytes never overflows, for every length", "anchors": ["stacks/src/crypto/b58.rs:b58_encode", "stacks/src/crypto/b58.rs:b58_decode"]}
{"id": "C15", "title": "b58_decode accepts exactly Base58 strings", "statement": "b58_decode returns Ok exactly when all characters are in the alphabet, with the value the string denotes and one zero byte per leading '1'; no carry is ever lost. Otherwise, the first offending character decides: BadChar if it is below U+0100, a panic (index out of bounds) if it is U+0100 or above.", "quantifier": "every Unicode string", "why_tests_cant": "unbounded strings; loss of a carry would need very long inputs", "anchors": ["stacks/src/crypto/b58.rs:b58_decode", "stacks/src/crypto/b58.rs:B58_BYTE_MAP"]}
{"id": "C16", "title": "Base58Check round trip", "statement": "base58check_decode(base58check_encode(hash, version)) returns Ok((hash, version)) exactly when version, hash and checksum bytes are not all zero.", "quantifier": "every hash byte sequence and version byte", "why_tests_cant": "unbounded payloads, arbitrary hash function", "anchors": ["stacks/src/crypto/b58.rs:base58check_encode", "stacks/src/crypto/b58.rs:base58check_decode"]}
{"id": "C17", "title": "base58check_decode soundness and panics", "statement": "If base58check_decode(s) returns Ok((data, version)) then the bytes of s are version, data and the first four bytes of their double SHA-256. It panics exactly when b58_decode panics or decodes to fewer than five bytes (for example the empty string).", "quantifier": "every Unicode string", "why_tests_cant": "all strings; short checksum-free inputs panic", "anchors": ["stacks/src/crypto/b58.rs:base58check_decode"]}
{"id": "C18", "title": "Signing preimages are injective", "statement": "The bytes hashed before signing determine the previous hash, the authorization flag, the fee and the nonce; the bytes hashed after signing determine the pre-sign hash and the signature. So equal sighashes for different data exhibit a SHA-512/256 collision.", "quantifier": "all pairs of hashes, flags, fees and nonces, and signatures", "why_tests_cant": "injectivity over 2^(8*49) inputs", "anchors": ["stacks/src/crypto/hash.rs:SignatureHash::make_presign_hash", "stacks/src/crypto/hash.rs:SignatureHash::make_postsign_hash"]}
{"id": "C19", "title": "MessageSignature conversions", "statement": "MessageSignature::from_slice succeeds exactly on 65 bytes (else InvalidMessageSigLength with the length); into_recov(from_recov(sig)) gives back sig for every recoverable signature.", "quantifier": "every byte sequence and every recoverable signature", "why_tests_cant": "every length and every signature", "anchors": ["stacks/src/crypto/hash.rs:MessageSignature::from_slice", "stacks/src/crypto/hash.rs:MessageSignature::from_recov", "stacks/src/crypto/hash.rs:MessageSignature::into_recov"]}
{"id": "C20", "title": "Multi-sig address scripts", "statement": "hash_p2sh(m, keys) is HASH160 of the script OP_m, then 33-byte push of each key, OP_n, OP_CHECKMULTISIG whenever m and n are at most 175; the script determines m and the key list (in order) for up to 175 keys. It panics if m > 175 or n mod 256 > 175. hash_p2wsh is HASH160 of 0x00 0x20 SHA256(script), hash_p2wpkh is HASH160 of 0x00 0x14 HASH160(key).", "quantifier": "every required count and every key list", "why_tests_cant": "all key lists and counts; overflow only at large counts", "anchors": ["stacks/src/crypto/c32.rs:hash_p2pkh", "stacks/src/crypto/c32.rs:hash_p2wpkh", "stacks/src/crypto/c32.rs:hash_p2sh", "stacks/src/crypto/c32.rs:hash_p2wsh"]}
{"id": "C21", "title": "Clarity round trip", "statement": "For every well-formed standard Clarity value v (principals canonical with 20-byte hash and known version; strings of the right type; lengths within limits), decode_clarity_type(encode(v) followed by any bytes) returns v.", "quantifier": "every Clarity value of any nesting depth and any trailing bytes", "why_tests_cant": "Values nest to any depth and width and the trailing bytes are arbitrary; a test fixes a handful of shapes, while a fault (say in how the consumed length of a nested list is counted) can need a particular nesting.", "anchors": ["stacks/src/clarity/mod.rs:decode_clarity_type", "stacks/src/clarity/impl.rs:Codec for Int", "stacks/src/clarity/impl.rs:Codec for List", "stacks/src/clarity/impl.rs:Codec for Tuple"]}
{"id": "C22", "title": "When Clarity encoding succeeds", "statement": "encode never panics. It succeeds exactly when: every principal is an address c32_address_decode accepts, every string-ascii is ASCII, every contract name and tuple key has at most 128 bytes, and every buffer, string, list and tuple has fewer than 2^32 elements; otherwise it returns an error.", "quantifier": "every Clarity value", "why_tests_cant": "Claims exactly which values encode, over values of unbounded depth; a sample cannot show that no accepted value fails and no bad value slips through below some level of nesting.", "anchors": ["stacks/src/clarity/impl.rs:encode"]}
{"id": "C23", "title": "Clarity encoding is injective and prefix-free", "statement": "If the encodings of two well-formed Clarity values are such that one is a prefix of the other then the values are equal.", "quantifier": "all pairs of Clarity values", "why_tests_cant": "A relation between all pairs of values of unbounded size: two confusable encodings would have to be guessed to be tested.", "anchors": ["stacks/src/clarity/impl.rs:encode"]}
{"id": "C24", "title": "Decoding consumes exactly what it re-encodes", "statement": "If decode_clarity_type(bytes) returns Ok(v) and v encodes, then encode(v) is a prefix of bytes: two inputs that decode to the same value with nothing left over are equal, and the length used to advance through lists, tuples and payloads is the number of bytes consumed.", "quantifier": "every byte sequence", "why_tests_cant": "Ranges over all byte strings, most of which no encoder produces; the decoders' acceptance of malformed input is exactly what hand-written inputs miss.", "anchors": ["stacks/src/clarity/mod.rs:decode_clarity_type", "stacks/src/clarity/impl.rs:Codec for List", "stacks/src/clarity/impl.rs:Codec for Tuple"]}
{"id": "C25", "title": "Clarity decoding ignores trailing bytes", "statement": "If decode_clarity_type(bytes) returns Ok(v), then it returns Ok(v) for bytes followed by anything.", "quantifier": "every byte sequence and every suffix", "why_tests_cant": "Every input and every suffix; a decoder that looks past its own bytes does so only for particular lengths.", "anchors": ["stacks/src/clarity/mod.rs:decode_clarity_type"]}
{"id": "C26", "title": "Truncated Clarity encodings are never mis-decoded", "statement": "Decoding any proper prefix of the encoding of a well-formed value never returns Ok; it panics (index out of range).", "quantifier": "every well-formed value and every cut point", "why_tests_cant": "Every value times every cut point; a truncation that happens to be readable as another value would be a needle in an unbounded set.", "anchors": ["stacks/src/clarity/mod.rs:decode_clarity_type", "stacks/src/clarity/impl.rs:decode"]}
{"id": "C27", "title": "Unknown and mismatched type identifiers", "statement": "decode_clarity_type on a first byte above 0x0e returns UnexpectedType of that byte. The typed decoders except StringUtf8's return BadIdentifier(own id, first byte) when the first byte is not theirs; StringUtf8::decode does not look at the first byte.", "quantifier": "every byte sequence", "why_tests_cant": "Ranges over every byte sequence for each of the fifteen decoders.", "anchors": ["stacks/src/clarity/mod.rs:decode_clarity_type", "stacks/src/clarity/impl.rs:decode"]}
{"id": "C28", "title": "Integer wire format", "statement": "Int encodes as 0x00 and 16 big-endian bytes in two's complement, UInt as 0x01 and 16 big-endian bytes; the numeric value is recovered from the bytes for the whole i128 and u128 ranges.", "quantifier": "every i128 and every u128", "why_tests_cant": "Each of the two types has 2^128 values; the boundary and sign cases can be sampled but not the whole range.", "anchors": ["stacks/src/clarity/impl.rs:Codec for Int", "stacks/src/clarity/impl.rs:Codec for UInt"]}
{"id": "C29", "title": "Clarity wire length", "statement": "len(v) equals the sum prescribed by the format: 17 for integers, 1 for booleans and none, 22 for principals (plus 1 plus name length for contracts), 5 plus byte length for buffers and strings, 1 plus inner for wrappers, 5 plus elements for lists and tuples (plus 1 plus key length per entry).", "quantifier": "every well-formed value", "why_tests_cant": "The length is a recursive sum over unbounded nesting, relied on by every decoder to find the next element.", "anchors": ["stacks/src/clarity/mod.rs:Codec::len", "stacks/src/clarity/impl.rs:encode"]}
{"id": "C30", "title": "Clarity decoding terminates on every input", "statement": "decode_clarity_type terminates on every byte sequence, with recursion depth at most the input length: the result is independent of any larger recursion bound.", "quantifier": "every byte sequence", "why_tests_cant": "Termination and depth on every input, in particular on adversarial bytes, cannot be observed by running finitely many inputs.", "anchors": ["stacks/src/clarity/mod.rs:decode_clarity_type"]}
{"id": "C31", "title": "Equality of Clarity values is Display equality", "statement": "== on Clarity values is an equivalence relation implied by structural equality, and coincides with it on integers, booleans, buffers and strings; on lists, tuples and contract principals distinct values can compare equal.", "quantifier": "all pairs of Clarity values", "why_tests_cant": "Equivalence laws quantify over pairs and triples of values; collisions of the textual form lie in specially built strings.", "anchors": ["stacks/src/clarity/macro.rs:PartialEq", "stacks/src/clarity/impl.rs:Display"]}
{"id": "C32", "title": "Casting", "statement": "cast::<T> on a boxed value (or the inner value of ok/err/some) returns that value exactly when its concrete type is T, BadDowncast otherwise.", "quantifier": "every value and target type", "why_tests_cant": "Every value against every target type, at any depth of boxing.", "anchors": ["stacks/src/clarity/macro.rs:Cast"]}
{"id": "C33", "title": "Tuple as an association list", "statement": "get returns the value of the first entry with that key; insert appends (so an existing key keeps its old value); remove deletes the first entry with that key and returns its value; other keys are unaffected. On tuples with distinct keys and fresh inserts this is a finite map.", "quantifier": "every tuple, key, value and operation history", "why_tests_cant": "A law about all histories of operations on tuples of any size, including duplicate keys.", "anchors": ["stacks/src/clarity/impl.rs:Tuple::get", "stacks/src/clarity/impl.rs:Tuple::get_mut", "stacks/src/clarity/impl.rs:Tuple::insert", "stacks/src/clarity/impl.rs:Tuple::remove", "stacks/src/clarity/impl.rs:Tuple::keys", "stacks/src/clarity/impl.rs:Tuple::values"]}
{"id": "C34", "title": "Length-prefixed strings", "statement": "LengthPrefixedStr encodes to one length byte and the UTF-8 bytes exactly when these are at most 128 (else BadStringLength(len, 128)), and decoding it with any trailing bytes gives the string back.", "quantifier": "every Unicode string and trailing bytes", "why_tests_cant": "Every string, where the limit counts UTF-8 bytes and not characters, so the boundary depends on the mix of characters.", "anchors": ["stacks/src/clarity/impl.rs:Codec for LengthPrefixedStr"]}
{"id": "C35", "title": "Function arguments", "statement": "FnArguments::decode(encode(args) followed by any bytes) returns args for every list of well-formed Clarity values.", "quantifier": "every argument list", "why_tests_cant": "Lists of any length of arbitrarily nested values, followed by arbitrary bytes.", "anchors": ["stacks/src/clarity/impl.rs:Codec for FnArguments"]}
{"id": "C36", "title": "Hex form of a value", "statement": "hex() is the lower-case hex of encode(), hex_prefixed() is 0x followed by it, and hex_to_bytes(hex()) followed by decode_clarity_type gives the value back.", "quantifier": "every well-formed value", "why_tests_cant": "Every well-formed value, of any depth.", "anchors": ["stacks/src/clarity/mod.rs:Codec::hex", "stacks/src/clarity/mod.rs:Codec::hex_prefixed"]}
{"id": "C37", "title": "Token-transfer payload layout", "statement": "A token transfer encodes as 0x00, the recipient's encoding, the amount as 8 big-endian bytes and the memo's UTF-8 bytes zero-padded to 34; memos longer than 34 bytes give BadStringLength(len, 34) before anything else.", "quantifier": "every recipient, amount and memo", "why_tests_cant": "Every recipient, all 2^64 amounts and every memo, including multi-byte memos around the 34-byte limit.", "anchors": ["stacks/src/transaction/payload.rs:Codec for TokenTransferPayload"]}
{"id": "C38", "title": "Token-transfer payload round trip", "statement": "Decoding an encoded token transfer (with any trailing bytes) gives the same recipient and amount, and the memo padded with NULs to 34 bytes; re-encoding the result gives the same bytes.", "quantifier": "every well-formed payload and trailing bytes", "why_tests_cant": "Every payload and every continuation of the byte stream.", "anchors": ["stacks/src/transaction/payload.rs:Codec for TokenTransferPayload"]}
{"id": "C39", "title": "Contract-call payload round trip", "statement": "Decoding an encoded contract call (with any trailing bytes) gives the same address, contract, function name and arguments.", "quantifier": "every well-formed payload and trailing bytes", "why_tests_cant": "Every address, pair of names and argument list of any size, and every continuation.", "anchors": ["stacks/src/transaction/payload.rs:Codec for ContractCallPayload"]}
{"id": "C40", "title": "Payload dispatch", "statement": "Decoding a boxed payload dispatches on the first byte: 0x00 token transfer, 0x02 contract call, anything else UnexpectedType. Encodings of distinct well-formed payloads differ (memos being compared up to trailing NUL padding).", "quantifier": "every byte sequence; all pairs of payloads", "why_tests_cant": "Ranges over all inputs and over pairs of payloads.", "anchors": ["stacks/src/transaction/payload.rs:Codec for Box<dyn Payload>"]}
{"id": "C41", "title": "Post-condition encoding", "statement": "Each post-condition encodes to the SIP-005 layout (type, principal, asset info, code, amount or token name); encoding fails with BadDowncast exactly when the address is not a principal.", "quantifier": "every post-condition", "why_tests_cant": "Every combination of principal, asset and code with all 2^64 amounts and any token value.", "anchors": ["stacks/src/transaction/condition.rs:Codec for STXPostCondition", "stacks/src/transaction/condition.rs:Codec for FungiblePostCondition", "stacks/src/transaction/condition.rs:Codec for NonFungiblePostCondition", "stacks/src/transaction/condition.rs:Codec for AssetInfo"]}
{"id": "C42", "title": "Post-condition lists are unambiguous", "statement": "An independent reader of the SIP-005 post-condition format recovers, from the encoding of a list of well-formed post-conditions followed by any bytes, exactly that list: count, order, principals, assets, codes and amounts. So different lists have different encodings.", "quantifier": "every list of post-conditions", "why_tests_cant": "Unambiguity of a list format is a statement about all lists and all continuations; two lists with the same bytes would have to be guessed.", "anchors": ["stacks/src/transaction/condition.rs:Codec for PostConditions"]}
{"id": "C43", "title": "Transaction wire format", "statement": "A transaction encodes as version byte, 4-byte chain id, authorization, anchor mode, post-condition mode, post-conditions, payload, and an independent reader of that format recovers all of them; different well-formed transactions have different encodings.", "quantifier": "every well-formed transaction", "why_tests_cant": "Every transaction: each field has unboundedly many values and the layout depends on their sizes.", "anchors": ["stacks/src/transaction/base.rs:Codec for Transaction", "stacks/src/transaction/auth.rs:Codec for Auth", "stacks/src/transaction/auth.rs:Codec for SpendingConditionStandard", "stacks/src/transaction/auth.rs:Codec for SpendingConditionMultiSig"]}
{"id": "C44", "title": "The signing hash does not depend on fee, nonce, signatures or sponsor", "statement": "The initial signing hash is unchanged by set_fee, set_nonce, signing, appending keys and replacing the sponsor, and its preimage determines version, chain, signer, mode, anchor mode, post-conditions and payload.", "quantifier": "every transaction and every sequence of these operations", "why_tests_cant": "The stability of the identifier is a claim about every sequence of operations on every transaction.", "anchors": ["stacks/src/transaction/base.rs:Transaction::initial_hash", "stacks/src/transaction/auth.rs:Auth::reset"]}
{"id": "C45", "title": "set_fee and set_nonce change exactly the origin's fee and nonce", "statement": "After set_fee(f) the origin's fee is f and nothing else differs, likewise set_nonce; the last write wins and the two commute; a sponsor's fee and nonce are never changed.", "quantifier": "every transaction and sequence of setters", "why_tests_cant": "A frame property over all sequences of setters on all transactions.", "anchors": ["stacks/src/transaction/auth.rs:Auth::set_fee", "stacks/src/transaction/auth.rs:Auth::set_nonce", "stacks/src/transaction/base.rs:Transaction::set_fee", "stacks/src/transaction/base.rs:Transaction::set_nonce"]}
{"id": "C46", "title": "Encoded length is known before signing", "statement": "Signing a single-signature transaction, or changing fee or nonce, leaves the encoded length unchanged, so a fee estimated from the unsigned length is valid for the signed transaction.", "quantifier": "every transaction and key", "why_tests_cant": "Every transaction, fee, nonce and signature; the length depends on the sizes of all parts.", "anchors": ["stacks/src/transaction/base.rs:Transaction::sign", "stacks/src/transaction/base.rs:Codec for Transaction"]}
{"id": "C47", "title": "Signing makes the origin verify exactly when the key matches", "statement": "For a single-signature transaction created for public key P, signing with secret key k succeeds, and the signed transaction's origin verifies if k's public key is P; verification yields a hash equal to the signer's; if it verifies for another k then the two keys have the same HASH160.", "quantifier": "every unsigned single-sig transaction, key, fee and nonce", "why_tests_cant": "Every key, payload, fee and nonce; and a universal claim about the signature scheme.", "anchors": ["stacks/src/transaction/base.rs:Transaction::sign", "stacks/src/transaction/base.rs:Transaction::verify_origin", "stacks/src/transaction/auth.rs:SpendingConditionStandard::verify"]}
{"id": "C48", "title": "Signing changes only the signature", "statement": "Transaction::sign leaves version, chain, modes, post-conditions, payload, fee, nonce and signer unchanged and fails with OriginOversign on an already signed transaction.", "quantifier": "every transaction and key", "why_tests_cant": "A frame property over every transaction, signed or not, and every key.", "anchors": ["stacks/src/transaction/base.rs:Transaction::sign", "stacks/src/transaction/base.rs:Transaction::sign_and_append"]}
{"id": "C49", "title": "Verification binds the signed content", "statement": "If the same signature verifies for two transactions with the same signer, then either all signed content (version, chain, modes, post-conditions, payload, fee, nonce) agrees, or an explicit hash collision, or an equal public-key hash from two different messages, is exhibited.", "quantifier": "all pairs of transactions", "why_tests_cant": "A statement about pairs of transactions; the single field a verifier forgot to cover has to be guessed.", "anchors": ["stacks/src/transaction/auth.rs:verify", "stacks/src/crypto/hash.rs:SignatureHash::next_verify"]}
{"id": "C50", "title": "Multi-signature signing flow", "statement": "For an m-of-n multisig origin, walking the n keys in order and for each either signing with its secret key or appending its public key, with at least m signatures, yields a transaction whose origin verifies.", "quantifier": "every m, every list of participants and every choice of signers", "why_tests_cant": "Exponentially many subsets of signers for unbounded numbers of keys.", "anchors": ["stacks/src/transaction/signer.rs:TransactionSigner::sign_origin", "stacks/src/transaction/signer.rs:TransactionSigner::append_origin", "stacks/src/transaction/auth.rs:SpendingConditionMultiSig::verify"]}
{"id": "C51", "title": "Too few signatures never verify", "statement": "A multisig condition with fewer signatures than required does not verify, whatever else it contains; the error is BadSignatureCount(required, count) if all signatures are recoverable.", "quantifier": "every multisig condition and hash", "why_tests_cant": "Lists of authorization fields of any length and any mixture of keys and signatures.", "anchors": ["stacks/src/transaction/auth.rs:SpendingConditionMultiSig::verify"]}
{"id": "C52", "title": "The signer never oversigns", "statement": "With the default checks, along every sequence of signer operations the number of origin signatures never exceeds the required number, the same for the sponsor, and once the sponsor has signed the origin never changes again.", "quantifier": "every sequence of signer operations", "why_tests_cant": "All interleavings of signing and appending.", "anchors": ["stacks/src/transaction/signer.rs:TransactionSigner"]}
{"id": "C53", "title": "Sponsored signing flow", "statement": "A sponsored transaction whose origin signed first and whose sponsor (set through new_sponser, any fee and nonce) then signed verifies with Auth::verify; the origin's signature remains valid whatever sponsor is set.", "quantifier": "every sponsored transaction, key pair, fee and nonce", "why_tests_cant": "Every sponsored transaction with any combination of authorizations.", "anchors": ["stacks/src/transaction/signer.rs:TransactionSigner::new_sponser", "stacks/src/transaction/signer.rs:TransactionSigner::sign_sponsor", "stacks/src/transaction/auth.rs:Auth::verify"]}
{"id": "C54", "title": "Auth::verify of a standard authorization accepts everything", "statement": "Auth::verify returns Ok for every standard (non-sponsored) authorization, signed or not, and every hash; only verify_origin checks its signature.", "quantifier": "every standard authorization and hash", "why_tests_cant": "A universal claim over all authorizations.", "anchors": ["stacks/src/transaction/auth.rs:Auth::verify"]}
{"id": "C55", "title": "Multisig required/total overflow", "statement": "Creating a multisig condition panics when required > 175 or the number of keys modulo 256 exceeds 175; verification panics on 256 or more recoverable signatures.", "quantifier": "every multisig condition", "why_tests_cant": "Only extreme sizes (over 255 signatures or keys) misbehave, and the bound holds for every size.", "anchors": ["stacks/src/transaction/auth.rs:SpendingConditionMultiSig::new", "stacks/src/transaction/auth.rs:SpendingConditionMultiSig::verify", "stacks/src/crypto/c32.rs:hash_p2sh"]}
{"id": "C56", "title": "Token-transfer builder", "statement": "STXTokenTransfer::transaction yields a transaction with the network's version and chain id, a P2PKH origin for the sender's public key with the given fee and nonce, the given modes and post-conditions, and the given recipient, amount and memo; sponsored = true panics.", "quantifier": "every builder value", "why_tests_cant": "Every argument of every constructor, on each of the networks.", "anchors": ["stacks/src/transaction/builder.rs:STXTokenTransfer::transaction"]}
{"id": "C57", "title": "Contract-call builder", "statement": "STXContractCall::transaction yields the corresponding contract-call transaction; it fails when the contract address does not decode and panics when it is checksum-valid but not 20 bytes or sponsored is set.", "quantifier": "every builder value", "why_tests_cant": "Every string a caller may pass as an address; the panicking ones are a sparse infinite set.", "anchors": ["stacks/src/transaction/builder.rs:STXContractCall::transaction"]}
{"id": "C58", "title": "Network separation", "statement": "Every network of the crate pairs the mainnet version with the mainnet chain id or the testnet version with the testnet chain id. The same builder on two networks, the crate's or a user's own, of different version or chain id gives different encodings and different signing preimages, and a signature made for one does not verify on the other unless a hash collision is exhibited.", "quantifier": "every builder value and every pair of networks", "why_tests_cant": "Every argument, and pairs of networks.", "anchors": ["stacks/src/transaction/network.rs:impl_network_type", "stacks/src/transaction/network.rs:TransactionVersion", "stacks/src/transaction/network.rs:ChainID"]}
{"id": "C59", "title": "Wallet cache is transparent", "statement": "Along any sequence of get_account calls, each returns exactly what derivation from the root key at that index gives (and errors exactly when it does); with set_account, get_account returns the last account set for that index, or the derived one.", "quantifier": "every history of get_account and set_account calls", "why_tests_cant": "Every sequence of account requests, in any order.", "anchors": ["stacks/src/wallet.rs:StacksWallet::get_account", "stacks/src/wallet.rs:StacksWallet::set_account"]}
{"id": "C60", "title": "Account address", "statement": "get_address gives, for each of the four versions, a valid address that decodes to HASH160 of the account's public key and that version; addresses of an account in different versions differ.", "quantifier": "every account and version", "why_tests_cant": "Every key: 2^256 of them, in four versions.", "anchors": ["stacks/src/wallet.rs:StacksAccount::get_address"]}
{"id": "C61", "title": "Wallet key agrees with transaction sender", "statement": "A token transfer built and signed with an account's private key verifies, and its origin signer is the hash in the account's P2PKH address.", "quantifier": "every account, payload, fee and nonce", "why_tests_cant": "Every account, payload, fee and nonce.", "anchors": ["stacks/src/wallet.rs:StacksAccount::private_key", "stacks/src/wallet.rs:StacksAccount::get_address", "stacks/src/transaction/builder.rs:STXTokenTransfer::transaction"]}
{"id": "C62", "title": "RPC requests carry the transaction", "statement": "broadcast sends exactly the encoded transaction to {url}/v2/transactions; estimate_fee sends the payload hex and the encoded length to {url}/v2/fees/transaction; nothing is sent when encoding fails.", "quantifier": "every transaction, url and server behaviour", "why_tests_cant": "Every transaction and every behaviour of the server, including failures in the middle of the exchange.", "anchors": ["stacks/src/rpc.rs:StacksRPC::broadcast", "stacks/src/rpc.rs:StacksRPC::estimate_fee"]}
{"id": "C63", "title": "RPC responses are classified by status", "statement": "A reply to broadcast with a status below 400 gives Ok(body), a status of 400 or more gives Err with the parsed error object, transport failures give a Ureq error; estimate_fee likewise; read_only turns every status of 400 or more into an error and classifies the others by the shape of the body.", "quantifier": "every server reply", "why_tests_cant": "The server is an adversary: any status with any body; a test server plays a handful.", "anchors": ["stacks/src/rpc.rs:StacksRPC::broadcast", "stacks/src/rpc.rs:StacksRPC::estimate_fee", "stacks/src/rpc.rs:StacksRPC::read_only"]}
{"id": "C64", "title": "Read-only calls", "statement": "read_only posts to {url}/v2/contracts/call-read/{address}/{contract}/{function} the sender and the hex of each argument in order; if any argument does not encode nothing is sent.", "quantifier": "every argument list", "why_tests_cant": "Argument lists of any length of arbitrarily nested values, any text in the address parts.", "anchors": ["stacks/src/rpc.rs:StacksRPC::read_only"]}
{"id": "C65", "title": "Derived FromTuple: success", "statement": "A derived conversion succeeds exactly when every field's extraction succeeds, each field then holding the value under its key (first match); the first failing field in declaration order decides the error.", "quantifier": "every struct description and tuple", "why_tests_cant": "Every struct definition with any number of fields and every tuple; a test compiles a few structs.", "anchors": ["stacks_derive/src/from_tuple.rs:__impl"]}
{"id": "C66", "title": "Derived FromTuple: field types", "statement": "i128/u128/bool/Vec<u8> fields require exactly an int/uint/bool/buffer (with response: an ok of one) under the key, String takes any value's Display form, Vec<String> a list, nested structs a tuple; otherwise Extract, Match or Cast errors as specified.", "quantifier": "every field type and value", "why_tests_cant": "Every value under the key for every type of field.", "anchors": ["stacks_derive/src/from_tuple.rs:__internal_if_chain_cast", "stacks_derive/src/from_tuple.rs:__internal_type_cast"]}
{"id": "C67", "title": "Derived FromTuple: options", "statement": "Option<i128>/Option<u128> fail with Extract on a missing key but give None on none or on a value of the wrong type; Option<String> gives None on a missing key too.", "quantifier": "every tuple", "why_tests_cant": "Every value under the key, and its absence, for each of the option types.", "anchors": ["stacks_derive/src/from_tuple.rs:__internal_derive_option"]}
{"id": "C68", "title": "Node and account queries", "statement": "info() sends one GET to {url}/v2/info and address(a) one GET to {url}/v2/accounts/{a}; each returns Ok exactly when the reply has a status below 400 and its body is a JSON object with the required fields of the right types, the result holding those values; otherwise the error says whether the transport, the reading or the parsing failed.", "quantifier": "every url, address and server reply", "why_tests_cant": "The server is an adversary: any status, any body and any additional or missing fields.", "anchors": ["stacks/src/rpc.rs:StacksRPC::info", "stacks/src/rpc.rs:StacksRPC::address"]}
{"id": "C69", "title": "The text of a Clarity value is its literal", "statement": "to_string of a Clarity value is the literal of the value in a fixed grammar: a decimal numeral without leading zeros (with a minus sign, or after u for unsigned), 0x and lower-case hexadecimal pairs, true, false, none, the principal, (ok ...), (err ...), (some ...), the elements of a list and the (key value) pairs of a tuple separated by single spaces, quoted strings. It is the only literal of the value, and among values whose strings, names and keys contain no delimiter a text is the literal of at most one value.", "quantifier": "all values, of any size and depth, and all texts", "why_tests_cant": "Every nested value; a printer that is right on small literals can be wrong on a separator at depth or an empty container.", "anchors": ["stacks/src/clarity/impl.rs: Display impls", "stacks/src/clarity/macro.rs"]}
{"id": "C70", "title": "encode reports the error of the first part that cannot be written", "statement": "encode of a Clarity value returns an error e exactly when some part of the value cannot be written and e is the error of the first such part in writing order: the address error for a principal, BadStringLength(len, 128) for a long contract name, key or length-prefixed string, BadStringType for a non-ASCII ASCII string, the integer conversion error for a size of 2^32 or more. The entries of a tuple are written in insertion order: the encoder does not sort the keys, and different orders have different bytes.", "quantifier": "all values, of any size and depth, and all errors", "why_tests_cant": "Every value with any number of defects at any depth: which of them is reported depends on all the parts before it.", "anchors": ["stacks/src/clarity/impl.rs: Codec::encode impls", "stacks/src/clarity/mod.rs: Error"]}
{"id": "C71", "title": "decode_clarity_type: which error, and panics only on truncated input", "statement": "decode_clarity_type returns an error e exactly when some part of the input is not acceptable and e is the error of the first such part in reading order. The only errors are: unknown identifier, unknown address version, malformed UTF-8, and, for elements of lists and tuples, BadStringLength(n,128) with 128<n<256 and BadStringType. A result (value or error) does not change when bytes are appended. A panic means the input ended too early: every input on which it panics is a proper prefix of an input on which it returns.", "quantifier": "all byte strings and all continuations", "why_tests_cant": "All byte strings: the claim includes that no input other than a truncated one panics, and that appending bytes never changes a result.", "anchors": ["stacks/src/clarity/mod.rs: decode_clarity_type, Error", "stacks/src/clarity/impl.rs: Codec::decode impls"]}
{"id": "C72", "title": "Encoding a transaction reports the error of its first part that cannot be written", "statement": "Encoding a post-condition, a list of them, a payload or a transaction returns an error e exactly when some part has no encoding and e is the error of the first such part: in a transaction the authorization (2^32 or more fields), the post-conditions in order (principal, asset, token), the payload (the memo before the recipient; contract name, function name, arguments). The hash to sign can be computed unless conditions or payload fail, whatever signatures are present. None of these panics.", "quantifier": "all transactions, payloads and post-conditions, and all errors", "why_tests_cant": "Any number of defects anywhere in a transaction: which one is reported depends on all the parts before it.", "anchors": ["stacks/src/transaction/base.rs: Transaction::encode, Transaction::hash, Transaction::initial_hash", "stacks/src/transaction/condition.rs: Codec impls", "stacks/src/transaction/payload.rs: Codec impls"]}
{"id": "C73", "title": "Payload::decode: which error, and panics only on truncated input", "statement": "Decoding a payload returns an error e exactly when some part of the input is not acceptable and e is the error of the first such part: an unknown type byte; for a transfer an unreadable recipient, one that cannot be written again, or a memo that is not UTF-8; for a call an unreadable or too long name, or an unreadable argument. A result does not change when bytes are appended. It panics only on inputs that end too early.", "quantifier": "all byte strings and all continuations", "why_tests_cant": "All byte strings and continuations; no sample shows that only truncated inputs panic.", "anchors": ["stacks/src/transaction/payload.rs: Payload decoders", "stacks/src/clarity/impl.rs: FnArguments::decode, LengthPrefixedString::decode"]}
{"id": "C74", "title": "The verdict of verification in every case", "statement": "Verifying a condition against a chain hash returns: a Hash error if some signature (the first such) recovers no key; BadSignatureCount if there are fewer signatures than required; BadSigner with the expected and the computed hash if the recovered and listed keys hash to another signer; the next chain hash otherwise; and it panics exactly when a condition has a mode of the other kind, more than 255 signatures, or numbers that do not fit the script. verify_origin does this with type byte 4 from the hash of what is signed; a sponsored authorization continues with type byte 5 from the hash the origin leaves.", "quantifier": "all conditions, chain hashes and transactions, for every signature scheme and all hash functions", "why_tests_cant": "Every list of fields of any length, any mixture of keys and good or bad signatures; a verifier that accepts one list too many is a security hole no finite sample excludes.", "anchors": ["stacks/src/transaction/auth.rs: SpendingConditionStandard::verify, SpendingConditionMultiSig::verify, Auth::verify, Auth::verify_origin", "stacks/src/transaction/base.rs: Transaction::verify_origin", "stacks/src/crypto/hash.rs: SignatureHash::next_verify, MessageSignature::into_recov"]}
{"id": "C75", "title": "The outcome of every signing step", "statement": "sign_origin, sign_sponsor, append_origin, Transaction::sign, the two constructors of the signer and the two constructors of conditions each have exactly one outcome, given by a decision table: refused after the sponsor signed, refused when enough signatures are present, refused when mode and kind of condition disagree, otherwise the new state with exactly one field added or set and the next chain hash.", "quantifier": "all signers (with any combination of flags), transactions, keys", "why_tests_cant": "Every state of the signer, reachable or not, with every key; the decision depends on counts of unbounded lists.", "anchors": ["stacks/src/transaction/signer.rs: TransactionSigner", "stacks/src/transaction/base.rs: Transaction::sign, sign_next_origin, sign_next_sponsor, append_next_origin", "stacks/src/transaction/auth.rs: SpendingConditionStandard::new, SpendingConditionMultiSig::new"]}
{"id": "C76", "title": "Signing and verifying with the real signature scheme", "statement": "With ECDSA over secp256k1 (RFC 6979 nonces, low s, public key recovery) as the signature scheme, nothing about signatures has to be assumed: signing any 32-byte hash with any key gives a signature that verifies against the key's point on the curve, has a low s and recovers to the key's public key; hence a transaction built for a key and signed with it verifies, a multi-signature transaction signed by enough of its keys verifies, a sponsored one verifies for both parties, and a transfer signed with an account of a wallet verifies with the hash in the account's address as signer.", "quantifier": "all 32-byte hashes, all secret keys, all transactions, wallets and accounts, all hash functions in the transaction", "why_tests_cant": "There are about 2^256 keys and 2^256 hashes; a signature with the wrong recovery id, or a high s, appears for half of them or for one in 2^128.", "anchors": ["stacks/src/crypto/hash.rs: MessageSignature, SignatureHash", "stacks/src/transaction/signer.rs: TransactionSigner", "stacks/src/transaction/base.rs: Transaction::sign, Transaction::verify_origin", "stacks/src/wallet.rs: StacksAccount"]}
{"id": "C77", "title": "Equality of post-conditions", "statement": "Two PostConditions whose names and addresses contain no delimiter of the debug text compare equal exactly when they hold the same conditions in the same order. Always, == is an equivalence relation. Without the restriction on names it is not equality: there are two fungible conditions on different assets, both encodable, with different bytes, that compare equal.", "quantifier": "all lists of post-conditions, with token values of any depth", "why_tests_cant": "Whether a printed form determines the printed value is a claim about all pairs of values of unbounded depth; colliding texts would have to be guessed.", "anchors": ["stacks/src/transaction/condition.rs: PostConditions, AssetInfo, ConditionCode", "stacks/src/clarity/macro.rs: PartialEq of impl_clarity_primitive", "stacks/src/clarity/impl.rs: Debug implementations"]}
{"id": "C78", "title": "Equality of contract calls and of builders", "statement": "Two contract-call payloads whose arguments have an unambiguous text compare equal exactly when address, contract, function and all arguments are the same; builders that compare equal build the same transaction. Without that restriction two payloads with a different number of arguments, both encodable to different bytes, can compare equal.", "quantifier": "all contract-call payloads and all token-transfer and contract-call builders", "why_tests_cant": "A claim about all pairs of argument lists and of builders; colliding texts would have to be guessed.", "anchors": ["stacks/src/transaction/payload.rs: ContractCallPayload", "stacks/src/transaction/builder.rs: STXTokenTransfer, STXContractCall", "stacks/src/clarity/impl.rs: FnArguments"]}
{"id": "C79", "title": "Multi-signature scripts and Bitcoin's", "statement": "The script hashed for m of n keys, and therefore the signer hash and address of a multi-signature account, is the one Bitcoin (and a Stacks node) uses exactly when m and n are both between 1 and 16; for other numbers the hashes can agree only by a collision of these two scripts.", "quantifier": "all numbers of required signatures and all lists of keys", "why_tests_cant": "All numbers and key lists; tests use two or three keys, where the scripts agree.", "anchors": ["stacks/src/crypto/c32.rs: hash_p2sh, hash_p2wsh"]}
{"id": "C80", "title": "What a node does with the encoded transaction", "statement": "The bytes of a well-formed transaction whose scripts have numbers from 1 to 16 are accepted by a node (which reads them back as SIP-005 says, recomputes the hash and checks the authorization) exactly when the crate's own verification of origin and sponsor succeeds, there are no more signatures than required, each post-condition's code fits its kind and a transfer goes to an account. In particular the builders' transactions, signed with their sender's key, multi-signature transactions signed by exactly the required number, and sponsored ones signed by both are accepted. Extra signatures, misfitting codes, other recipients and (unless the two scripts collide) larger scripts are refused although the crate verifies them.", "quantifier": "all transactions, keys, lists of participants, and all parsers of public keys that accept serialized keys", "why_tests_cant": "The claim ranges over every transaction and every signature history, and needs a second implementation of the receiving side.", "anchors": ["stacks/src/transaction/base.rs: Transaction::encode, Transaction::verify_origin, Transaction::sign", "stacks/src/transaction/auth.rs: Auth::verify, SpendingConditionMultiSig::verify", "stacks/src/transaction/builder.rs: STXTokenTransfer, STXContractCall", "stacks/src/transaction/signer.rs: TransactionSigner"]}
{"id": "C81", "title": "Refused operations change nothing", "statement": "A call that signs or appends on a signer, modifies a spending condition or sets a sponsor, and that returns an error or panics, leaves the signer, condition or authorization exactly as it was. So after any sequence of calls, whatever their results, the signer is the one that the successful calls alone produce: refused calls can be left out of the history.", "quantifier": "all signers, conditions and authorizations in any state, all calls, all sequences of calls", "why_tests_cant": "Every state, call and history; a test that ignores an error sees one of them.", "anchors": ["stacks/src/transaction/signer.rs: TransactionSigner::sign_origin, sign_sponsor, append_origin", "stacks/src/transaction/base.rs: Transaction::sign_next_origin, sign_next_sponsor, append_next_origin, sign_and_append", "stacks/src/transaction/auth.rs: SpendingCondition::modify, Auth::set_sponsor, Auth::origin_mut, Auth::sponsor_mut"]}
{"id": "C82", "title": "Signature verification is ECDSA's", "statement": "The crate accepts a single signature, with one of the recovery identifiers, exactly when its 64 bytes are a valid ECDSA signature over secp256k1 (by the textbook definition, in the group of the curve) of the digest of the transaction for a key that hashes to the signer; a multi-signature transaction is accepted only with at least the required number of valid, chained signatures. The curve's group has exactly as many points as the order of the base point says, so every public key belongs to exactly one secret key.", "quantifier": "all digests, 65-byte strings, public keys and transactions", "why_tests_cant": "There are about 2^256 digests and keys, and the invalid signatures that a test would have to guess are the ones an attacker looks for.", "anchors": ["stacks/src/crypto/hash.rs: SignatureHash", "stacks/src/transaction/auth.rs: SpendingConditionSingleSig::verify, SpendingConditionMultiSig::verify", "stacks/src/transaction/base.rs: Transaction::verify_origin"]}
{"id": "C83", "title": "Signatures are malleable", "statement": "Anyone can turn a verified transaction, without any key, into another one that differs only in the (last) signature, has different bytes of the same length, and verifies for the same signer: s is replaced by the order minus s and the recovery identifier is changed. So a transaction's identity is not fixed by what was signed. Of the two signatures the crate itself always makes the one with the smaller s, but it accepts both. In a sponsored transaction the same can be done with the signature of a sponsor of one key.", "quantifier": "all verified standard transactions with a single signature or with several, at least one of them a signature, and all verified sponsored ones whose sponsor has a single signature", "why_tests_cant": "The claim is about every accepted signature; tests verify only signatures the crate made itself.", "anchors": ["stacks/src/transaction/base.rs: Transaction::verify_origin", "stacks/src/transaction/auth.rs: SpendingConditionSingleSig::verify, SpendingConditionMultiSig::verify", "stacks/src/transaction/auth.rs: MessageSignature"]}
{"id": "C84", "title": "Recursion depth of decoding", "statement": "Decoding a Clarity value nests exactly as many calls as the value is deep, neither more nor fewer, and the depth is at most the number of input bytes. It can equal that number: no limit on the nesting of decoded values (such as the 32 levels of the Clarity language) is enforced, so the stack needed grows with the input.", "quantifier": "all byte strings that decode, all depths", "why_tests_cant": "Every nesting of every container, of any depth; a test that is deep enough to matter overflows its own stack.", "anchors": ["stacks/src/clarity/impl.rs: decode_clarity_type, ClarityList::decode, ClarityTuple::decode, ClarityOptionalSome::decode, ClarityResponseOk::decode"]}
{"id": "C85", "title": "Work of encoding and decoding", "statement": "Because containers find the next element by re-encoding the last one, work is more than linear, but polynomial for every input: encoding appends at most the square of the number of bytes it returns to buffers, decoding (of values and of function arguments, accepted or not) at most the cube of the number of input bytes. The cubic order is reached: k nested one-element lists take 5k+1 bytes, and decoding them appends k(k+1)(5k-2)/6 bytes.", "quantifier": "all values, all byte strings, all nesting depths k", "why_tests_cant": "A bound on the work for every input of every length; a benchmark measures some inputs and cannot show that none is worse.", "anchors": ["stacks/src/clarity/impl.rs: decode_clarity_type, ClarityList::decode, ClarityTuple::decode, FnArguments::decode, ClarityType::len"]}
{"id": "C86", "title": "Room requested for function arguments", "statement": "When a byte string decodes to function arguments, the decoder asked for room for exactly the arguments it returns, fewer than the input has bytes. But it asks before it has looked at anything but the count: for every count from 1 to 2^32-1 there are four bytes for which it asks for room for that many arguments, and then panics.", "quantifier": "all byte strings, all counts", "why_tests_cant": "The claim covers all counts and all inputs; a test that tries a large count may exhaust the machine it runs on.", "anchors": ["stacks/src/clarity/impl.rs: FnArguments::decode"]}
{"id": "C87", "title": "From the words of a wallet to an accepted transaction", "statement": "Take a phrase the library accepts as a wallet, any earlier requests for accounts, and any account the wallet then hands out. Its keys are those the phrase alone determines. For every fee, nonce, network, post conditions and acceptable payload, building a transfer or a contract call with the account's key, signing it and broadcasting it makes exactly one request; its body is a transaction a Stacks node reads back and accepts, whose sender is the key behind every address the account displays, and whose fields are those the caller asked for. If the node answers with success, the caller gets its answer.", "quantifier": "all phrases, account histories and indices, builder arguments, node addresses and node behaviours; with the cryptography as an interface, and with real secp256k1 ECDSA and BIP 32", "why_tests_cant": "The claim is about a composition over every phrase, every call history, every payload and every behaviour of the node; a test follows one path through it.", "anchors": ["stacks/src/wallet.rs: StacksWallet, StacksAccount", "stacks/src/transaction/builder.rs: STXTokenTransfer, STXContractCall", "stacks/src/transaction/base.rs: Transaction::sign", "stacks/src/rpc.rs: StacksRPC::broadcast"]}
{"id": "C88", "title": "The text of an error says which error it is", "statement": "Within each module of the crate, two different errors of its own never print the same message: the message determines the kind of error and every value in it, for every error the API can return. Across the address encodings, Base58 and C32 share exactly one message, that of a bad character.", "quantifier": "all errors of the crate's own kinds, all values in them", "why_tests_cant": "Injectivity over all messages with arbitrary strings and numbers in them; tests compare a few messages.", "anchors": ["stacks/src/crypto/hex.rs: Error", "stacks/src/crypto/b58.rs: Error", "stacks/src/crypto/c32.rs: Error", "stacks/src/crypto/hash.rs: Error", "stacks/src/clarity/mod.rs: Error", "stacks/src/transaction/mod.rs: Error", "stacks/src/derive.rs: Error"]}
{"id": "C89", "title": "The hexadecimal iterator", "statement": "The iterator over a hex string refuses exactly the strings of odd byte length. Otherwise its calls return the bytes of the leading digit pairs in order; then, if the whole string consists of digit pairs, nothing more, ever, and if not, a bad-character error. It always ends, after at most as many items as the string has bytes, and stays ended. The decoding function returns what collecting the iterator up to the first error gives. A caller who continues after an error reads pairs one character off if the bad character was the first of a pair, and a last lone digit is dropped silently.", "quantifier": "all strings, all numbers of calls", "why_tests_cant": "All strings and any number of calls, including calls after an error or after the end, which tests rarely make.", "anchors": ["stacks/src/crypto/hex.rs: HexIterator, hex_to_bytes"]}
{"id": "C90", "title": "Hashes and signatures as values", "statement": "Hashes and signatures compare as the big-endian numbers their bytes write, equal only if identical, and in the same order as their hexadecimal texts. hex() and the debug text agree, have two lower-case digits per byte, determine the value and decode back to its bytes. Construction from raw bytes succeeds exactly for the right number of bytes and panics otherwise, where the fallible constructor of signatures reports the length. The checksum is the first four bytes.", "quantifier": "all values of each of the six types, all byte strings", "why_tests_cant": "All pairs of values of 20, 32 and 65 bytes; a comparison can be wrong at one byte position or one pair of digits only.", "anchors": ["stacks/src/crypto/hash.rs: impl_hash_byte_array, Hash160, MessageSignature, Sha256Hash, DSha256Hash, Sha512_256Hash, SignatureHash"]}
{"id": "C91", "title": "Responses survive being saved as JSON", "statement": "Every response of the RPC client that is written as a JSON value and read again is the same response, and the same variant of it: node and account information, broadcast answers, read-only answers. Fee estimates do exactly when their rates are finite numbers; otherwise they are written but cannot be read at all.", "quantifier": "all values of every response type", "why_tests_cant": "Every string and number in every field; untagged variants are told apart only by shape, so one confusable pair would break it.", "anchors": ["stacks/src/rpc.rs: NodeInfoResponse, AddressInfoResponse, EstimateFeeResponse, FeeOk, FeeEstimate, BroadcastResponse, BroadcastErr, ReadOnlyResponse, ReadOnlyOk, ReadOnlyErr"]}
{"id": "C92", "title": "The clarity! macro builds what is written", "statement": "Every Clarity value can be written with clarity!, its parts nested to any depth, and the macro builds exactly that value: lists, tuples and function arguments keep the parts in the order and under the keys written, integers compile exactly if they fit, and the name at the front is that of the type built whatever follows it. An invocation never has two meanings. By path (stacks_rs::clarity!) without an import only values with no values inside compile, and clarity!(Buffer) never does.", "quantifier": "all Clarity values, all argument expressions (other macro calls included), all imports in scope", "why_tests_cant": "Macro rules are tried in order and call each other; the claim ranges over every nesting of every form, and about what does not compile, which a test cannot contain.", "anchors": ["stacks/src/clarity/macro.rs: clarity!, impl_clarity_primitive!"]}
{"id": "C93", "title": "The post_condition! macro builds what is written", "statement": "post_condition! with one condition gives that condition; with any number of them in parentheses, with or without a comma at the end, it gives all of them in the order written. It compiles exactly if each kind is known and its parts have the types of the constructor in its order and the amount fits in 64 bits. Every list of conditions can be written, by path too.", "quantifier": "all lists of post-conditions, all expressions for their parts, all imports in scope", "why_tests_cant": "Any number of conditions of three kinds in any order, with any expressions; rules of a macro are tried in order, so one shape can be caught by the wrong rule.", "anchors": ["stacks/src/transaction/condition.rs: post_condition!, STXPostCondition::new, FungiblePostCondition::new, NonFungiblePostCondition::new"]}
{"id": "C94", "title": "A request body has one reading", "statement": "The body sent by read_only and by estimate_fee, as the text written to the node, is a JSON document, and under the JSON grammar it can be read in only one way: an object with the sender character for character and the arguments, or with the payload and the length, and nothing else, in whatever order the members are written. No sender text, whatever quotation marks, backslashes or control characters it has, can change what is read as the arguments: bodies with the same text have the same sender and the same arguments.", "quantifier": "all senders, argument lists and transactions; all JSON values for the writer; all readings allowed by the grammar, with any white space and escapes", "why_tests_cant": "Injection is about the one string nobody tried: every sender of any length with any characters, and every other way a reader may divide the text.", "anchors": ["stacks/src/rpc.rs: StacksRPC::read_only, StacksRPC::estimate_fee"]}
{"id": "C95", "title": "Work of the Base58 and C32 codecs", "statement": "C32 encoding and decoding take a number of loop steps linear in the input, at most 6n+2 and 5n+2, whether the input is accepted or not. Base58 encoding and decoding take at most quadratically many, 2(n+1)^2, also on rejected input; and no fewer than quadratically many on every byte string without a leading zero and on every accepted string, so the time is that of the longest string a caller lets in. For an accepted string of n characters with k leading ones the number is exactly k + n(b+1) + b + (b-1) + ... with b = 733n/1000+1, as many terms as the buffer of b bytes begins with zeros when all characters are read.", "quantifier": "all byte strings and all strings, accepted or rejected", "why_tests_cant": "A bound on work over all lengths cannot be measured on some; the lower bounds say that no long input is cheap.", "anchors": ["stacks/src/crypto/b58.rs: b58_encode, b58_decode", "stacks/src/crypto/c32.rs: c32_encode, c32_decode"]}
{"id": "C96", "title": "Length of Base58 and C32 texts and addresses", "statement": "The C32 text of n bytes has at least n and at most (8n+4)/5 characters, the Base58 text at least n and at most n*138/100+1, the room reserved for it. Decoding either never yields more bytes than there were characters. The text of a Stacks address has between 26 and 41 characters and that of a Bitcoin address between 25 and 35.", "quantifier": "all byte strings, all strings, all 20-byte hashes and versions", "why_tests_cant": "The bounds are over all lengths and all values; leading zeros trade against digits, and the extreme lengths occur for very few inputs.", "anchors": ["stacks/src/crypto/b58.rs: b58_encode, b58_decode, base58check_encode", "stacks/src/crypto/c32.rs: c32_encode, c32_decode, c32_address"]}
{"id": "C97", "title": "Equality of wallets", "statement": "Two wallets are == exactly when their root keys are equal and they remember the same account, or none, at every index, whatever calls made them. Wallets only asked for accounts are equal exactly when the same derivable indexes were asked for, in any order and any number of times. get_account changes == with the wallet as it was exactly when the account is derivable and not yet remembered. Equal wallets answer every later call alike and stay equal under the same calls.", "quantifier": "all root keys, all histories of get_account and set_account, all indexes", "why_tests_cant": "Equality after a history depends on every call in it and on none of their order; histories are unbounded and indexes have 2^32 values.", "anchors": ["stacks/src/wallet.rs: StacksWallet, StacksAccount, StacksWallet::get_account, StacksWallet::set_account"]}
{"id": "C98", "title": "The text of the crate's error", "statement": "The crate's top-level error, and those of the client and the wallet, show the text of what they come from, through any wrapping. Two of them with the same text of the crate come from the same thing with the same data, except that a bad character of Base58 reads like one of C32; and errors that come from the same thing read the same in whatever they are wrapped. An error has no text of the crate exactly when it comes from another crate or the standard library.", "quantifier": "all pairs of errors of the crate, with any data in them as the crate's functions make it", "why_tests_cant": "A clash is between two texts with data in them, out of seven enums; tests compare one error with its own text.", "anchors": ["stacks/src/lib.rs: Error", "stacks/src/rpc.rs: Error", "stacks/src/wallet.rs: Error", "stacks/src/transaction/mod.rs: Error", "stacks/src/clarity/mod.rs: Error"]}
{"id": "C99", "title": "A signature is bound to one message, fee, nonce and role", "statement": "With ECDSA over secp256k1: if the same 65 bytes of a signature (or the same list of fields of a multi-signature, with at least one signature) are accepted for the same account hash twice, then both times for the same previous hash, role (origin or sponsor), fee and nonce, and for two transactions everything signed agrees. The only exceptions are spelled out and explicit: the two strings signed differ but their SHA-512/256 are equal or exactly the group order apart; the two signing pre-images collide; or the signature recovers, under the two messages, two different keys (lists of keys) whose key or script hashes collide. In particular set_fee and set_nonce after signing, in any sequence, leave a transaction that verifies only if fee and nonce end up as signed, and the signatures of an origin are not accepted as those of a sponsor.", "quantifier": "all pairs of transactions, conditions, hashes, signatures; all sequences of set_fee and set_nonce", "why_tests_cant": "A counterexample is a pair of messages and one signature out of 2^520; no test finds or excludes it.", "anchors": ["stacks/src/transaction/auth.rs:SpendingConditionStandard::verify", "stacks/src/transaction/auth.rs:SpendingConditionMultiSig::verify", "stacks/src/transaction/base.rs:Transaction::verify_origin", "stacks/src/transaction/base.rs:Transaction::set_fee"]}
{"id": "C100", "title": "A sponsor's signature is bound to the origin's signatures", "statement": "The hash that the sponsor signs determines the sponsored transaction: if it is the same for two, everything the origins signed is the same, as are the lists of the origins' signatures and, if these are not empty, fee and nonce; or two explicit strings hashed on the way collide. With ECDSA over secp256k1, the same signatures of a sponsor accepted for two transactions therefore sponsor the same content, with the same signatures of the origin, the same fees and nonces, up to explicit collisions.", "quantifier": "all pairs of well-formed sponsored transactions with origins and sponsors of any kind and any number of signatures", "why_tests_cant": "It is about all pairs of transactions and chains of any number of signatures; a chain of another length that ends in the same hash is not something a test would meet.", "anchors": ["stacks/src/transaction/auth.rs:Auth::verify", "stacks/src/transaction/base.rs:Transaction::verify_origin", "stacks/src/transaction/signer.rs:TransactionSigner::new_sponser", "stacks/src/transaction/signer.rs:TransactionSigner::sign_sponsor"]}
{"id": "C101", "title": "The participants of a multi-signature act in the order of the account's keys", "statement": "Whatever participants sign or have their key appended, in whatever order, the outcome of verifying the origin is known: with fewer signatures than required BadSignatureCount; otherwise success if the account of the participants' keys in the order in which they acted is the account of the condition, else BadSigner naming both. So verification succeeds only if the keys are those of the account, in its order, each once and none left out, or two explicit scripts have the same hash; and the fields of any verified origin name or recover to the keys of its account one by one.", "quantifier": "all lists of keys and of participants (up to the sizes at which the script's numbers overflow), thresholds, transactions", "why_tests_cant": "There are n! orders and unboundedly many lists of participants; tests use the right order.", "anchors": ["stacks/src/transaction/signer.rs:TransactionSigner::sign_origin", "stacks/src/transaction/signer.rs:TransactionSigner::append_origin", "stacks/src/transaction/auth.rs:SpendingConditionMultiSig::verify"]}
{"id": "C102", "title": "Which phrases make a wallet", "statement": "from_secret_key accepts exactly the texts whose words, however they are spaced, are 12, 15, 18, 21 or 24 words of the list with a right checksum, and the wallet depends on the words only: two texts with the same words make the same wallet or are refused for the same reason. The key is derived along 44', 5757', 0', 0 from the seed PBKDF2 makes of the words separated by single spaces. Any other text is refused with the error that says why: the number of words, the position of the first unknown word, or the checksum; the first word is looked at before the words are counted. Past the phrase, the wallet and its accounts fail only where BIP 32 itself allows for it: a key out of range.", "quantifier": "all texts, all lists of 2048 different words, all histories of get_account and all indexes", "why_tests_cant": "There are 2^128 phrases and infinitely many texts; tests use one phrase, with single spaces.", "anchors": ["stacks/src/wallet.rs:StacksWallet::from_secret_key", "stacks/src/wallet.rs:StacksWallet::get_account"]}
{"id": "C103", "title": "Phrases and entropy", "statement": "Entropy of 16, 20, 24, 28 or 32 bytes has exactly one phrase that from_secret_key accepts, and each accepted phrase is that of exactly one entropy. With all words but the last chosen freely, exactly 128, 64, 32, 16 or 8 of the 2048 words complete a phrase of 12, 15, 18, 21 or 24 words. The English list can be used.", "quantifier": "all byte strings of these lengths, all lists of words, all hash functions", "why_tests_cant": "It is a bijection between sets of up to 2^256 elements.", "anchors": ["stacks/src/wallet.rs:StacksWallet::from_secret_key"]}
{"id": "C104", "title": "The keys of a wallet are those of BIP 32", "statement": "The key of a wallet is the key of BIP 32 at the path 44', 5757', 0', 0 from the seed PBKDF2 makes of its phrase in 2048 iterations, and the account at an index is the one at that path and the index, whatever was asked for before: its private key is that number, its public key that multiple of the generator of secp256k1, its addresses hashes of the public key's compressed form. Where BIP 32 has no key, the call fails and says so. There is at most one key at a path. Below 2^31 the public keys of the accounts follow from the public key and the chain code of the wallet, and with one of their private keys the private key of the wallet does too.", "quantifier": "all phrases, all histories of get_account, all 2^32 indexes, all seeds and paths", "why_tests_cant": "Tests compare two accounts of one phrase; a derivation that goes wrong only for hardened indexes or for keys with leading zero bytes passes them.", "anchors": ["stacks/src/wallet.rs:StacksWallet::from_secret_key", "stacks/src/wallet.rs:StacksWallet::get_account", "stacks/src/wallet.rs:StacksAccount::private_key", "stacks/src/wallet.rs:StacksAccount::public_key", "stacks/src/wallet.rs:StacksAccount::get_address"]}
{"id": "C105", "title": "Replies and saved responses as JSON text", "statement": "Reading JSON accepts exactly the texts of the JSON grammar with at most 127 arrays and objects inside each other whose numbers can be read, with any white space, any order of members and any way of escaping; natural numbers below 2^64 and negative integers down to -2^63 are read exactly, all others as floats. When a node replies with such a text, what info, address, read_only, estimate_fee and a refused broadcast return is exactly what the text says, and a data error if it does not say it. Node information, account information, answers to broadcasts and to read-only calls saved as JSON text are read from it as they were; fee estimates are if their rates are finite and the texts of these floats are read as they were, and cannot be read if a rate is not finite.", "quantifier": "all texts and byte strings; all replies of a node that are such texts; all response values", "why_tests_cant": "Infinitely many texts say the same; tests have no JSON text at all.", "anchors": ["stacks/src/rpc.rs:StacksRPC::info", "stacks/src/rpc.rs:StacksRPC::address", "stacks/src/rpc.rs:StacksRPC::read_only", "stacks/src/rpc.rs:StacksRPC::estimate_fee", "stacks/src/rpc.rs:StacksRPC::broadcast", "stacks/src/rpc.rs:NodeInfoResponse", "stacks/src/rpc.rs:AddressInfoResponse", "stacks/src/rpc.rs:EstimateFeeResponse", "stacks/src/rpc.rs:BroadcastResponse", "stacks/src/rpc.rs:ReadOnlyResponse"]}
{"id": "C106", "title": "The digests are those of the standards, and addresses follow from them", "statement": "The hashes a user gets or relies on are those of the standards: SHA-256, SHA-512 and SHA-512/256 as FIPS 180-4 defines them, with constants that are the fractional parts of the roots of the first primes, and RIPEMD-160 as its authors define it; Hash160 is RIPEMD-160 of SHA-256, a double SHA-256 is applied twice, and a checksum is its first four bytes. So the text of an address is fixed by the public key and the version alone, and the address of an account of a wallet by the phrase, the index and the version, in terms of these standards, BIP 39, BIP 32 and secp256k1.", "quantifier": "all messages within the standards' length limits, all keys, versions, phrases, histories of get_account and indexes", "why_tests_cant": "Digests are compared with the standards on a few messages; a wrong constant or a wrong padding at one length passes them.", "anchors": ["stacks/src/crypto/hash.rs:Sha256Hash", "stacks/src/crypto/hash.rs:DSha256Hash", "stacks/src/crypto/hash.rs:Sha512_256Hash", "stacks/src/crypto/hash.rs:Hash160", "stacks/src/crypto/c32.rs:c32_address", "stacks/src/wallet.rs:StacksAccount::get_address"]}
{"id": "C107", "title": "Builds without overflow checks", "statement": "Compiled without overflow checks (as release builds are), the crate does what it does with them wherever it does not panic with them: base-32 and base-58 texts are the same for all inputs, and so are conditions, verification, signing and every sequence of calls on a signer that started within its required number. Where the checked build panics because of the number of keys or signatures, the other one answers: an account of several keys can be made with any number of keys and any required number, verification counts signatures modulo 256, and the check for too many signatures counts modulo 65536. A transaction that verifies still carries the required number of signatures by keys whose script hashes to the signer; but accounts requiring 176 or more signatures have a script that no node arrives at, 256 good signatures count as none, and at 65536 signatures further ones are accepted.", "quantifier": "all inputs of the codecs, all conditions, transactions, keys, signers and sequences of calls, all numbers of participants and signatures", "why_tests_cant": "Tests run with overflow checks on; no test exercises the arithmetic users get, nor as many as 176 keys.", "anchors": ["stacks/src/crypto/c32.rs:c32_encode", "stacks/src/crypto/c32.rs:c32_decode", "stacks/src/crypto/b58.rs:b58_encode", "stacks/src/crypto/b58.rs:b58_decode", "stacks/src/crypto/c32.rs:hash_p2sh", "stacks/src/crypto/c32.rs:hash_p2wsh", "stacks/src/transaction/auth.rs:SpendingConditionMultiSig::verify", "stacks/src/transaction/auth.rs:SpendingConditionMultiSig::signatures", "stacks/src/transaction/signer.rs:TransactionSigner"]}
{"id": "C108", "title": "Payments through a node", "statement": "A program asks a node for the nonce of an account, builds a transfer or call with it, asks for the fee, sets one of the estimates, signs and broadcasts; it does so for any list of orders. If the node is honest (it counts the account's accepted transactions, quotes fees, and accepts valid transactions with the next nonce), every step succeeds: exactly the ordered transactions are accepted, in order, with consecutive nonces; each carries the fee that the node quoted for exactly its payload and exactly the number of bytes that were later sent, although the question is asked before the fee is set and the transaction signed; and the identifier that the node returns is the hash of the caller's own transaction. For an account of several keys (m of at most 16) any list of payments, each signed by any m of the keys, also comes through in order and with consecutive nonces, but each fee was quoted for a length that is short by exactly 66 bytes for each signature and 34 bytes for each key without one.", "quantifier": "all keys, addresses of them on any network, lists of acceptable transfers and calls, honest nodes with any state and any quotes, choices among the quotes, and starting states with room for the nonces; with real ECDSA and BIP 32 for all wallet accounts", "why_tests_cant": "A test pays a few times against a mock; that nonce, fee, length and identifier agree between three requests must hold for every history of orders and every node.", "anchors": ["stacks/src/rpc.rs: StacksRPC::address, StacksRPC::estimate_fee, StacksRPC::broadcast", "stacks/src/transaction/builder.rs: STXTokenTransfer, STXContractCall", "stacks/src/transaction/base.rs: Transaction::{set_fee, sign, hash}"]}
{"id": "C109", "title": "Targets with 32-bit sizes", "statement": "Compiled for a target whose sizes have 32 bits (wasm32), with or without overflow checks, the crate decodes every Clarity value that fits into memory as on a 64-bit target, including malformed lengths that overflow when an offset is added; Base58 texts of less than 2^32/733 bytes (5.8 million) and data of less than 2^32/138 bytes are treated alike too. Beyond that a build with overflow checks panics; one without decodes a text to the bytes of its number modulo a power of 256 that is too small, so that every such text without a leading 1 gives wrong bytes and no error, and large data do not round trip. Function arguments with a count of 2^28 or more panic on decoding whatever follows, so a list that long can be encoded but not decoded; smaller counts are treated alike.", "quantifier": "all byte strings and texts that fit into a 32-bit address space, both kinds of build", "why_tests_cant": "Tests run on 64-bit machines; no test can cover all inputs of a size at which a product of lengths overflows 32 bits.", "anchors": ["stacks/src/crypto/b58.rs:b58_encode", "stacks/src/crypto/b58.rs:b58_decode", "stacks/src/crypto/b58.rs:base58check_decode", "stacks/src/clarity/impl.rs:StringAscii::decode", "stacks/src/clarity/impl.rs:StringUtf8::decode", "stacks/src/clarity/impl.rs:FnArguments::decode", "stacks/src/clarity/mod.rs:decode_clarity_type"]}
{"id": "C110", "title": "Payments under every schedule", "statement": "Any number of programs pay through one node, each in three requests (nonce, fee, broadcast). Their requests may interleave in any order, the answer to any request may get lost, broadcasts may arrive late, repeatedly or never, and any program may be stopped at any point and started again. If the node goes by nonces, it accepts nothing but what the programs ordered, each account's transactions with consecutive nonces, so that no signed transaction is accepted twice however often it is sent. No request fails, except that a broadcast is refused exactly when its nonce is no longer the next one, and then nothing changes. A program that is told an identifier can rely on its transaction being accepted. A program whose account nobody else uses and whose requests and answers are not lost is never refused. Of two programs of one account that asked for the nonce together one is refused and comes through when started again. If the answer to a broadcast is lost, starting again pays twice; sending the same transaction again pays once, but the answer is a refusal.", "quantifier": "all finite sets of programs with acceptable orders, all nodes that go by nonces with any state and any quotes, all schedules of requests, lost answers, late and repeated broadcasts and restarts, with room for the nonces", "why_tests_cant": "There are infinitely many schedules; a race or a lost answer does not happen in a test against a mock.", "anchors": ["stacks/src/rpc.rs: StacksRPC::address, StacksRPC::estimate_fee, StacksRPC::broadcast", "stacks/src/transaction/builder.rs: STXTokenTransfer, STXContractCall", "stacks/src/transaction/base.rs: Transaction::{set_fee, sign, hash}"]}
{"id": "C111", "title": "Sponsored payments through a node", "statement": "One account orders and signs, another account pays: the caller asks the node for both nonces, makes the sponsored transaction, has the origin sign it, asks for a fee, and has the sponsor set it and sign. If the node counts for each account the transactions it took part in, every acceptable sponsored payment comes through: the node accepts exactly the transaction that was ordered, with the next nonce of each of the two accounts, the origin pays nothing and the sponsor exactly what the node had asked for a transaction of this payload and this length, and the identifier the caller gets is that of the caller's own copy. Any number of such payments, by any accounts for any others in turn, come through in the order in which they are made.", "quantifier": "all keys of different accounts, all acceptable payloads and post-conditions, all nodes that count with any state and any quotes, all sequences of sponsored payments with room for the nonces", "why_tests_cant": "A test makes one sponsored transaction with literal nonces and fees; that two accounts, two signatures, a fee quote and a length agree must hold for every history and every node.", "anchors": ["stacks/src/rpc.rs: StacksRPC::address, StacksRPC::estimate_fee, StacksRPC::broadcast", "stacks/src/transaction/base.rs: Transaction::{sign, hash}", "stacks/src/transaction/signer.rs: TransactionSigner::{new_sponser, sign_sponsor}", "stacks/src/transaction/auth.rs: Auth::Sponsored, SpendingConditionStandard::new"]}
{"id": "C112", "title": "The order of a tuple's entries", "statement": "A tuple's entries are encoded in the order in which the caller gave them, and signed so. A node that keeps tuples as maps ordered by name (as the reference node does) checks the signature against its own serialisation, so it sees the transaction with the entries of all tuples, in arguments and in non-fungible post-conditions, sorted by name. If they were given in ascending order it makes no difference: every acceptable contract call that is built and signed with the crate is accepted, if it meets whatever further rules the node has. A name that occurs twice in a tuple is refused. Any other order is refused, although the transaction can be built, signed, encoded and verified with the crate, unless explicitly named digests or accounts collide.", "quantifier": "all transactions and values with tuples nested to any depth, all rules a node may have in addition, all parsers of public keys, all hash functions (the refusal: with the real signature scheme)", "why_tests_cant": "The order of entries is one of factorially many and tuples nest without limit; the crate's tests never ask a node, so any order looks right to them.", "anchors": ["stacks/src/clarity/impl.rs: Tuple::{insert, encode}", "stacks/src/clarity/mod.rs: Tuple", "stacks/src/transaction/base.rs: Transaction::{sign, encode, initial_hash}", "stacks/src/transaction/builder.rs: STXContractCall"]}
{"id": "C113", "title": "Read-only calls through a node", "statement": "A node reads the path of the request (what the HTTP library makes of the URL, escapes undone) and the JSON text of its body, decodes the arguments from hexadecimal with its own reader of SIP-005, runs the function and replies with 0x and the hexadecimal form of the result, or with a cause. If address, contract and function have only characters that mean nothing in a URL, read_only runs exactly that function with exactly the caller's sender and arguments, and what the caller gets decodes (without the 0x, which the crate's hex decoder refuses) to exactly the value the function returned, or is exactly the cause. Function names in contracts may also have ? and /: with a question mark another function is run, the one whose name is the part in front of it, and its result is returned without an error; with a slash, or if the URL given to the crate ends in a slash, the request is no such question at all.", "quantifier": "all contracts as functions from questions to results, all nodes that have them, all node URLs, addresses, contract and function names and senders, all well-formed arguments, all sets of characters an HTTP library may escape and all orders of JSON members", "why_tests_cant": "A test calls one function by a literal name and compares with a canned reply; that path, body and result agree with what a node reads must hold for every name, argument and contract.", "anchors": ["stacks/src/rpc.rs: StacksRPC::read_only, ReadOnlyResponse", "stacks/src/clarity/mod.rs: Codec::hex", "stacks/src/crypto/hex.rs: hex_to_bytes", "stacks/src/clarity/impl.rs: decode"]}
{"id": "C114", "title": "Values, post-conditions and payloads of other implementations", "statement": "The public traits for Clarity values, post-conditions and payloads may be implemented by users of the crate. Whatever such parts write: a value is encoded as its parts in order, the first part that fails deciding the outcome; containers of parts that write what the crate's own values write are encoded, and read back, as if they held those; equality of containers is by text alone; post-conditions use the principal a part exposes and nothing else of it, and fail with BadDowncast if it exposes none; post-conditions used as a value inside another are read back as an integer; a transaction is encoded exactly when its parts are, made of header, authorization, post-conditions and payload; signing it with the right key makes it verify and with a wrong one fail with BadSigner, for one or several signatures; and a signature binds the header, the fee, the nonce and the bytes of the parts, or yields a collision.", "quantifier": "all values, post-conditions and payloads of any implementation, nested to any depth, answering any bytes, errors, panics and texts; all transactions, keys, participants and calls on a signer", "why_tests_cant": "The implementations are written by others: a test can only try the ones it brings along, while the claim is about any bytes, errors and texts they may answer.", "anchors": ["stacks/src/clarity/mod.rs: Clarity, Codec", "stacks/src/clarity/impl.rs: encode, Display", "stacks/src/clarity/macro.rs: PartialEq, Cast", "stacks/src/transaction/condition.rs: Condition, PostConditions", "stacks/src/transaction/payload.rs: Payload", "stacks/src/transaction/base.rs: Transaction", "stacks/src/transaction/signer.rs: TransactionSigner"]}
{"id": "C115", "title": "Names that the network refuses", "statement": "The crate checks no name: a contract call or transfer with any names of at most 128 bytes is built, signed, verified and encoded. A node with the network's rules (contract names are a letter and up to 39 letters, digits, - and _; Clarity names a letter and up to 127 letters, digits and -_!?+<>=/*, or an operator; ASCII strings hold printable characters and white space; tuples are not empty) accepts what the builders made exactly when the contract and function names, and those in recipient, arguments and post-conditions, are good. Good names always fit into the encoding.", "quantifier": "all contract calls and transfers of the builders with any names, arguments, post-conditions, keys and networks, all parsers of public keys, all hash functions and lawful signature schemes", "why_tests_cant": "Names are strings of any characters; a test tries a few literals and has no node that would refuse them.", "anchors": ["stacks/src/transaction/builder.rs: STXContractCall, STXTokenTransfer", "stacks/src/transaction/payload.rs: PayloadContractCall", "stacks/src/clarity/impl.rs: LengthPrefixedStr, PrincipalContract, Tuple, StringAscii", "stacks/src/transaction/condition.rs: AssetInfo"]}
{"id": "C116", "title": "What post-conditions make the network enforce", "statement": "A node that receives an encoded transaction keeps the effects of its execution exactly when each post-condition of the transaction is met (the amount of STX or of a token sent by the account compares with the stated amount as the code's name says; an item with Has was not sent and one with HasNot was) and, in Deny mode only, there is a condition for everything that left an account. For contract calls these are the conditions and the mode given to the builder. So upper limits hold in both modes, with Deny and no condition nothing moves, and with the builders' defaults everything is kept. Allow does not turn the conditions off, contrary to the documentation of PostConditionMode. The order of conditions and repetitions make no difference.", "quantifier": "all well-formed transactions with any post-conditions, modes, payloads, authorizations and signatures, all effects an execution may have on any accounts and assets, all parsers of public keys, all hash functions and signature schemes", "why_tests_cant": "The effects of an execution are chosen by whoever wrote the contract: that a limit holds is a claim about all of them, and about every list of conditions.", "anchors": ["stacks/src/transaction/condition.rs: ConditionCode, PostConditionMode, PostConditions, STXPostCondition, FungiblePostCondition, NonFungiblePostCondition", "stacks/src/transaction/builder.rs: STXContractCall", "stacks/src/transaction/base.rs: Transaction"]}
{"id": "C117", "title": "Transactions that the network takes", "statement": "The crate checks neither amounts nor fees nor whether addresses belong to the network. A transfer is built, signed, verified and encoded as long as it can be written; a node of a network takes it exactly when the builder's network is that one, the fee is at least 180 microSTX (181 and the length of the contract's name if the recipient is a contract), the amount is not zero, the recipient's address begins with SP or SM on the mainnet and with ST or SN on the testnet and is not the sender's own, there are no post-conditions, and the recipient's contract name is good. With the default fee of zero every transfer is refused. A contract call is taken exactly when the network is right, the fee is at least the number of bytes, the contract's address is one of the network and the names and texts are good.", "quantifier": "all transfers and contract calls of the builders with any recipient, amount, fee, nonce, memo, post-conditions, key and network (also networks defined by the user), both networks of nodes, all parsers of public keys, all hash functions and lawful signature schemes", "why_tests_cant": "Amounts, fees and recipients are arbitrary; a test sends a few literals and has no node that would refuse them.", "anchors": ["stacks/src/transaction/builder.rs: STXTokenTransfer, STXContractCall", "stacks/src/transaction/network.rs: Network", "stacks/src/transaction/payload.rs: TokenTransferPayload", "stacks/src/crypto/c32.rs: Address"]}
{"id": "C118", "title": "The order in which conditions and answers sort", "statement": "The orders of the exported types are total, agree with equality and are transitive, so that sorting and sorted maps work. The enumerations sort by the numbers that stand for them in transactions and addresses, not by declaration: P2SH address versions before P2PKH ones, the main chain before the test chain. Single-signature conditions sort by mode, then fee, nonce, signer and signature; multi-signature conditions by mode, fee, nonce, signer, fields and required number; authorization fields as the bytes they are sent as, keys before signatures; modifications by kind and value. Answers of the node sort by their fields in order of declaration, texts by UTF-8 bytes, successes before failures; answers about addresses whose balances are written as the node writes them sort by the amount.", "quantifier": "all pairs and triples of values of each of the types, with any keys, signatures, lists of fields and texts; all lawful signature schemes", "why_tests_cant": "Transitivity and totality are claims about all triples of values with unbounded lists and texts; a misplaced field shows only for values that agree on all the others.", "anchors": ["stacks/src/transaction/auth.rs: SpendingConditionStandard, SpendingConditionMultiSig, AuthField, Modification", "stacks/src/transaction/network.rs: TransactionVersion, ChainID", "stacks/src/transaction/condition.rs: ConditionCode, PostConditionMode", "stacks/src/transaction/base.rs: AnchorMode", "stacks/src/crypto/c32.rs: Mode, Version", "stacks/src/crypto/b58.rs: Version", "stacks/src/rpc.rs: NodeInfoResponse, AddressInfoResponse, BroadcastResponse, ReadOnlyResponse"]}
{"id": "C119", "title": "Values that the network refuses", "statement": "The crate puts any values into a list and nests values to any depth, but the network only takes values that have a type, nested at most 32 deep, the values of a list sharing one. A contract call is built, signed, verified and encoded whatever its arguments are; a node with rules for names and types takes it exactly when its names are good and each argument, and each token in a post-condition, has such a type. In particular a list of values of different kinds anywhere in an argument, or an argument nested more than 32 deep, is signed without an error and refused; plain values, lists of values of one type and values wrapped as optional or response are taken.", "quantifier": "all contract calls of the builder with any well-formed arguments and post-conditions whose tuples are in ascending order, all parsers of public keys, all hash functions and lawful signature schemes", "why_tests_cant": "Values are trees of any depth and width; a test tries a few and has no node that would refuse them.", "anchors": ["stacks/src/clarity/mod.rs: List, Tuple, OptionalSome, ResponseOk, FnArguments", "stacks/src/transaction/builder.rs: STXContractCall", "stacks/src/transaction/payload.rs: ContractCallPayload"]}
{"id": "C120", "title": "Comparing fee estimates", "statement": "Fee estimates are ordered by the fee, and for equal fees by the number the rate stands for, with minus infinity below and infinity above all numbers; so the least estimate has the least fee whatever the rates are. Answers of estimate_fee sort with estimates before reasons; two lists of estimates are compared at the first place where they differ, and a list that is the beginning of another comes first. == and < agree, are opposite the other way round, transitive, and equal answers compare alike, whatever the rates are. No answer is given exactly for lists that first differ where the fees are equal and a rate is not a number, and an answer is equal to itself exactly if all rates are numbers or infinite. Since JSON writes only numbers, all answers estimate_fee returns are equal to themselves and can be compared with each other.", "quantifier": "all fees, all 2^64 bit patterns of rates, all lists of estimates of any length and all reasons; all nodes and transactions for what estimate_fee returns", "why_tests_cant": "There are 2^128 pairs of rates and lists of any length; a test compares a few numbers and never meets a rate that is not a number.", "anchors": ["stacks/src/rpc.rs: FeeEstimate, FeeOk, EstimateFeeResponse, StacksRPC::estimate_fee"]}
{"id": "C121", "title": "Structs from the answers of contracts", "statement": "A struct with the derived conversion is read from a contract by calling read_only, taking off the 0x, reading the hexadecimal digits, decoding, casting to a tuple and converting: this yields a struct exactly when the contract returned a tuple that every field of the struct fits, and its fields are those of that tuple, with unboundedly many further entries and in any order. The struct says exactly this about the tuple: integers, booleans and bytes are the same, texts are those of the values, an optional integer tells that integer in a some from everything else, an optional text the text in a some from everything else, and a nested struct what it says in turn; two tuples make the same struct if and only if they agree in this.", "quantifier": "all contracts, nodes that have them, functions, senders and arguments, all structs the macro accepts, all conversions of nested types, all pairs of tuples", "why_tests_cant": "Contracts return tuples of any shape, and structs are declared by the user; a test fixes one of each and compares no two tuples.", "anchors": ["stacks_derive/src/from_tuple.rs: FromTuple", "stacks/src/rpc.rs: StacksRPC::read_only", "stacks/src/clarity/mod.rs: Tuple, decode_clarity_type", "stacks/src/crypto/hex.rs: hex_to_bytes"]}
{"id": "C122", "title": "Mistakes that signing reports, and mistakes that it does not", "statement": "A transfer to an address of another network than the builder's, and a call of a contract at one, are built, signed, verified and encoded without an error for every key, fee and amount, and are taken by no node of any network; the same holds for every call with the default fee. A transaction with a post-condition about a text that is no address cannot be signed by any key, wherever the condition stands; the error is that of the address unless an earlier condition has an error. The examples of the README are cases of this: its transfer and its call name a testnet address and the mainnet, and its post-condition an address that is too short.", "quantifier": "all keys, recipients, contracts, arguments, fees, nonces, networks, lists of post-conditions and positions in them, all nodes", "why_tests_cant": "No test has a node that would refuse what was signed, and keys, fees and the place of a bad condition are arbitrary.", "anchors": ["stacks/src/transaction/builder.rs: STXTokenTransfer, STXContractCall", "stacks/src/transaction/base.rs: Transaction::sign", "stacks/src/transaction/condition.rs: STXPostCondition", "README.md"]}
{"id": "C123", "title": "Signatures are deterministic, and what a repeated nonce would reveal", "statement": "The signature put into a transaction is that of RFC 6979: for every key and every digest below the order of the group it is the ECDSA signature with the first usable nonce of the sequence that HMAC-SHA256 makes of the key and the digest, with the lower of the two values of s and the recovery identifier of its point; no other signature is ever given (if one of the first sixteen nonces is usable). Two signatures share their first half exactly if their nonces are the same or opposite, and if two signatures of different digests by one key do, the key is a quotient of numbers anyone can compute from the two signatures and digests.", "quantifier": "all private keys, all 32-byte digests below the order, all nonces, all pairs of signatures of a key", "why_tests_cant": "There are 2^512 pairs of key and digest; a test compares a few signatures, and a nonce that repeats for other inputs shows in none of them.", "anchors": ["stacks/src/crypto/hash.rs: SignatureHash::next_signature", "stacks/src/crypto/hash.rs: MessageSignature::from_recov", "stacks/src/transaction/signer.rs: TransactionSigner"]}
{"id": "C124", "title": "Which calls panic", "statement": "Of all the functions of the crate that return a Result or can panic, and of all arguments, exactly these calls panic: c32check_encode with a version above 31 and c32check_decode of the empty text; Address::from_str of a correct address of other than 20 bytes, and a contract-call builder with such an address; Base58 decoding when the first character that is no digit is U+0100 or beyond, and base58check_decode of fewer than five bytes; Hash160::new and MessageSignature::new with another length than 20 and 65; hash_p2sh, hash_p2wsh and the multi-signature constructor with numbers above 175 (keys modulo 256), and either constructor with a mode of the other kind; decoding bytes that end too early for a Clarity value, name, argument list or payload (with nothing wrong before their end), and the decoders that are not written; verification that reaches a mode of the other kind, such numbers or a 256th valid signature; counting 65536 signatures; builders with sponsored(true). Nothing else panics: no encoding, no hash, no call of a wallet or account, and no RPC call whatever the server answers.", "quantifier": "all functions, all arguments, all signatures and keys, all behaviours of a server", "why_tests_cant": "The claim is about every call of every function: a test shows that some calls panic or that some do not, never that no other does.", "anchors": ["stacks/src/crypto/c32.rs: c32check_encode, c32check_decode, Address::from_str, hash_p2sh, hash_p2wsh", "stacks/src/crypto/b58.rs: b58_decode, base58check_decode", "stacks/src/crypto/hash.rs: Hash160::new, MessageSignature::new", "stacks/src/clarity/impl.rs: decode", "stacks/src/clarity/mod.rs: decode_clarity_type", "stacks/src/transaction/auth.rs: SingleSpendingCondition, MultiSpendingCondition, Auth", "stacks/src/transaction/payload.rs: Payload::decode", "stacks/src/transaction/signer.rs: TransactionSigner", "stacks/src/transaction/builder.rs: STXTokenTransfer::transaction, STXContractCall::transaction", "stacks/src/rpc.rs: StacksRPC", "stacks/src/wallet.rs: StacksWallet, StacksAccount"]}
{"id": "C125", "title": "Which error each call reports", "statement": "For every function of the crate that returns a Result, and every argument, the call returns an error exactly in the cases listed, and the error is the one listed there, with its contents: among others, of several things that are wrong, hexadecimal text reports its length before its digits; C32 text a character beyond ASCII before all, then its last bad character, data before version before checksum; Base58 text its first bad character; a value or a list of arguments the first of its parts that cannot be written; a transaction its authorization, then its post-conditions, then its payload; signing what is signed, then the number of signatures, then the mode; a fee estimate the payload before the transaction; an answer its transport, status and body in that order. No call has two errors, none both an error and a panic, and the variants of the error types that stem from conversions of integers, slices and texts inside the codecs (and the hash and key errors of transactions) are reported by no call.", "quantifier": "all functions, all arguments, all keys, all behaviours of a server, all errors", "why_tests_cant": "Which of several errors comes out depends on the order of the checks for every combination of mistakes; tests look at one mistake at a time, and cannot show that a variant never occurs.", "anchors": ["stacks/src/crypto/hex.rs: hex_to_bytes", "stacks/src/crypto/c32.rs: Error", "stacks/src/crypto/b58.rs: Error", "stacks/src/crypto/hash.rs: Error", "stacks/src/clarity/mod.rs: Error", "stacks/src/transaction/mod.rs: Error", "stacks/src/transaction/signer.rs: TransactionSigner", "stacks/src/wallet.rs: Error", "stacks/src/rpc.rs: Error"]}
{"id": "C126", "title": "Which strings are addresses", "statement": "c32_address_decode succeeds exactly on an upper-case S followed by a spelling of a version digit and a spelling of the digits that write some bytes and the checksum of version and bytes, and gives that version and those bytes; Address::from_str succeeds with a version and 20 bytes exactly on their addresses; c32_address writes, for the versions 20, 21, 22 and 26 and no other, the one spelling with upper-case digits; the addresses of a version and some bytes are exactly the strings that become the written one when letters are made upper-case, O is read as 0 and I and L as 1; no string is an address of two versions or of two sequences of bytes.", "quantifier": "all strings, all versions, all payloads of every length", "why_tests_cant": "Which of the infinitely many strings are accepted, and as what, is a statement about all of them; tests try a few addresses and a few broken ones.", "anchors": ["stacks/src/crypto/c32.rs: c32_address, c32_address_decode, c32check_encode, c32check_decode, Address::from_str"]}
{"id": "C127", "title": "Payments of all kinds under every schedule", "statement": "Any number of programs pay through one node that counts for each account the transactions it takes part in; each program pays from an account of one key, from an account of several keys, or has its fee paid by a sponsor, and makes one request for each nonce, one for the fee, and broadcasts. For every interleaving of their requests, with answers lost, broadcasts that arrive late, repeatedly or never, and programs stopped and started again at any point: the node accepts nothing but what was planned, at most one transaction for each event; in each accepted transaction the nonce of each account is the number of earlier ones it took part in, in whatever role, so nothing is accepted twice; no request fails, but a broadcast is refused exactly when some nonce is no longer the next one; a program told the identifier of its transaction can rely on it; a program whose accounts nobody else uses and whose messages are not lost is never refused; of two ready transactions that share an account the first sent is accepted and the other refused; a program that is started again and left alone always comes through.", "quantifier": "all sets of programs of the three kinds, all schedules of any length, all nodes that count, all orders, keys and fees", "why_tests_cant": "The claim is about every schedule of any number of programs of three kinds; tests run one program after the other.", "anchors": ["stacks/src/rpc.rs: StacksRPC::address, estimate_fee, broadcast", "stacks/src/transaction/builder.rs: STXTokenTransfer, STXContractCall", "stacks/src/transaction/signer.rs: TransactionSigner", "stacks/src/transaction/auth.rs: SpendingConditionMultiSig, SpendingConditionStandard", "stacks/src/transaction/base.rs: Transaction"]}
{"id": "C128", "title": "What every call gives back", "statement": "For every function of the crate that returns a Result or can panic, and every argument, exactly one of three things happens, and which one is decided by three lists written without the functions: a panic, one error, or one value. The value is written out: the digits of an encoder and the bytes of a decoder, the value whose bytes come first in a longer input, the bytes of the parts of a transaction in the SIP-005 layout, the hash of the signing preimage, the transaction after one more signature and the hash the signer goes on with, the transactions of the two builders field by field, the account of an index and the wallet that remembers it, and what each reply of a server is read as. The three lists overlap nowhere and leave no call out.", "quantifier": "all functions, all arguments, all keys, all states of a signer and of a wallet, all behaviours of a server", "why_tests_cant": "The claim is that the lists are complete and disjoint: no finite set of calls shows that nothing else can come out.", "anchors": ["stacks/src/crypto/hex.rs: hex_to_bytes", "stacks/src/crypto/c32.rs: c32_encode, c32_decode, c32check_encode, c32check_decode, c32_address, c32_address_decode, Address", "stacks/src/crypto/b58.rs: b58_encode, b58_decode, base58check_encode, base58check_decode", "stacks/src/crypto/hash.rs: MessageSignature, SignatureHash", "stacks/src/clarity/impl.rs: Codec", "stacks/src/transaction/base.rs: Transaction", "stacks/src/transaction/signer.rs: TransactionSigner", "stacks/src/transaction/builder.rs: STXTokenTransfer, STXContractCall", "stacks/src/wallet.rs: StacksWallet, StacksAccount", "stacks/src/rpc.rs: StacksRPC"]}
{"id": "C129", "title": "A transaction's id stands for the transaction", "statement": "Transaction::hash exists exactly when the transaction can be encoded and is SHA-512/256 of the whole encoding. Two transactions with the same id are the same transaction, fee, nonce, signatures and sponsor included, or SHA-512/256 collides on their encodings; of the transactions a node took no two share an id, with the same exception; a reader of the bytes computes the same id; signing changes the id (always with secp256k1, whose signatures are never zeros); the id is not the hash that is signed. A node that answers a broadcast with the id of the bytes it got says the id that hash computes, but the caller gets it with the quotation marks of the answer, which hex_to_bytes refuses. The id is not fixed by what was signed: from any verified single-signature transaction one that says the same, verifies and has another id can be made without a key.", "quantifier": "all transactions, all pairs of transactions, all readers, all keys, all answers of a node", "why_tests_cant": "That no two transactions share an id is a statement about all pairs of transactions, up to collisions of the hash function; tests compare the ids of a few with constants.", "anchors": ["stacks/src/transaction/base.rs: Transaction::hash, initial_hash, sign, encode", "stacks/src/rpc.rs: StacksRPC::broadcast", "stacks/src/crypto/hex.rs: bytes_to_hex, hex_to_bytes"]}
{"id": "C130", "title": "The accounts of a wallet, and the wallets of different phrases, are separate", "statement": "Two accounts of a wallet at different indices, whatever was asked for before, have the same private key only if HMAC-SHA512 gives codes with the same left half for two different messages under the wallet's chain code, and the same address only in this case or if two different public keys have the same HASH160. The wallets of two different phrases have the same key and chain code only if the phrases have the same seed or HMAC-SHA512 gives codes with the same right half for two different inputs; so two texts with different words make different wallets up to such collisions. The same holds of any two children of a key and of any two seeds at any path.", "quantifier": "all wallets, all pairs of indices, all histories of a wallet, all pairs of phrases, all pairs of seeds and all paths", "why_tests_cant": "Distinct indices and phrases come in unboundedly many pairs; tests compare a few addresses with constants, and cannot show that any meeting is a collision of the hash functions and not a defect of the derivation.", "anchors": ["stacks/src/wallet.rs: StacksWallet::from_secret_key, StacksWallet::get_account, StacksAccount::get_address, StacksAccount::private_key"]}
{"id": "C131", "title": "A sponsor of several members needs them all", "statement": "The signer has append_origin but no counterpart for the sponsor. So if the sponsor set with new_sponser is a fresh m-of-n condition, then after any calls on the signer, with its flags set in any way before each, Auth::verify accepts only if the sponsor holds one signature of each of the n members in order, or the keys recovered from its signatures are another list whose script has the same address (a hash collision). With the default checks and m < n it is accepted only if the m keys recovered from its signatures have the same address as the n. With the check of the number of signatures off, all n signing in order verifies; and with the keys of those who do not sign put in by hand, through sponsor_mut and modify, m signatures do.", "quantifier": "all transactions, all lists of members, all m, all sequences of calls with all settings of the flags", "why_tests_cant": "Every sequence of calls on the signer and every list of members: that none of them completes the transaction is no matter of trying some.", "anchors": ["stacks/src/transaction/signer.rs: TransactionSigner::new_sponser, sign_sponsor, append_origin", "stacks/src/transaction/auth.rs: Auth::verify, Auth::sponsor_mut, SpendingConditionMultiSig::verify, SpendingConditionMultiSig::modify"]}
{"id": "C132", "title": "Passing a transaction from one signer to the next", "statement": "Members of a multi-sig account who sign one after the other, each group with a TransactionSigner of its own made with new for the transaction as the group before left it, and with its field hash set to the hash at which the signer before ended, get exactly what one signer for all of them gives: the same transaction or the same error; and with m signatures in all it verifies. Without the hash it does not: new begins again at the first hash, all calls succeed, and the transaction verifies only if the first group left the hash where it was, or two explicit strings have SHA-512/256 digests that meet, or the recovered keys are others with the same address. The same holds for the members of a sponsor who use new_sponser again, and for a sponsor who uses new in place of new_sponser for a transaction signed by its origin. One signer that signs the origin and then the sponsor gives a transaction that verifies.", "quantifier": "all transactions, all accounts of several members, all ways to cut the members into groups, all keys, fees and nonces", "why_tests_cant": "How the members are cut into groups, which of them sign and which keys they have is arbitrary; a test signs with one signer, and cannot show that another hash is never accepted.", "anchors": ["stacks/src/transaction/signer.rs: TransactionSigner::new, new_sponser, sign_origin, append_origin, sign_sponsor", "stacks/src/transaction/base.rs: Transaction::verify_origin", "stacks/src/transaction/auth.rs: Auth::verify"]}
{"id": "C133", "title": "Sponsored transactions that the network takes", "statement": "A sponsored transfer whose origin verifies can be sponsored and signed by any key and encoded. A node of a network takes it exactly when it is made for that network, the fee of the sponsor is at least the number of its bytes, the amount is not zero, the recipient's address is one of the network and not the origin's own, there are no post-conditions and the names are good; with an origin of one key the number of bytes is 283, or 284 and the length of the name if the recipient is a contract. A sponsored contract call is taken exactly when it is made for the network, the sponsor's fee is at least the number of bytes, the contract's address is one of the network and names and texts are good. The fee of the origin makes no difference, so a transaction whose sponsor left the fee at zero is refused however much the origin offers, and set_fee, which sets the fee that is paid for a transaction without a sponsor, makes no difference to these rules for a sponsored one.", "quantifier": "all transactions with any origin that verifies and any sponsor in place, all keys, fees, nonces and modes of the sponsor, both networks of nodes, all parsers of public keys, all hash functions and lawful signature schemes", "why_tests_cant": "Fees, keys, payloads and recipients are arbitrary, and no test has a node that would refuse what was signed.", "anchors": ["stacks/src/transaction/signer.rs: TransactionSigner::new_sponser, sign_sponsor", "stacks/src/transaction/base.rs: Transaction::set_fee, Transaction::sign, Transaction::encode", "stacks/src/transaction/auth.rs: Auth::set_fee, SpendingConditionStandard::new"]}
{"id": "C134", "title": "Transactions of accounts of several keys that the network takes", "statement": "A transfer of an account of n keys (n at most 16) of which m sign, the keys of the others being appended, has 34n + 32m + 120 bytes (121 and the length of the name if the recipient is a contract). A node of a network takes it exactly when it is made for that network, the fee is at least that number, the amount is not zero, the recipient's address is one of the network and not the account's own, there are no post-conditions and the name is good; a contract call exactly when it is made for the network, the fee is at least the number of bytes, the contract's address is one of the network and names and texts are good. Before it is signed the transaction is 34n + 32m bytes shorter: a fee of one microSTX for each of the bytes it then has is refused by every node, and estimate_fee asks with a length that is short by as much, while with one key it asks the same before and after signing.", "quantifier": "all transactions, all lists of at most 16 members, all m, all keys, fees, nonces and both modes, both networks of nodes, all parsers of public keys, all hash functions and lawful signature schemes", "why_tests_cant": "Numbers of members and signatures, fees and payloads are arbitrary, and no test has a node.", "anchors": ["stacks/src/transaction/signer.rs: TransactionSigner::new, sign_origin, append_origin", "stacks/src/transaction/base.rs: Transaction::encode", "stacks/src/transaction/auth.rs: SpendingConditionMultiSig::new, SpendingConditionMultiSig::encode", "stacks/src/rpc.rs: StacksRPC::estimate_fee"]}
