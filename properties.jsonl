{"id": "C01", "title": "Base64 round trip", "statement": "Decoding the Base64 text produced by the encoder returns exactly the bytes that were encoded.", "quantifier": "every byte string of every length", "why_tests_cant": "The padding case depends on the length modulo 3 and every byte value feeds two output characters; tests cover a handful of literals.", "anchors": ["anothertls/src/utils/base64.rs: encode, decode"]}
{"id": "C02", "title": "Base64 decoding rejects malformed text", "statement": "Given text that is not Base64 (a character outside the alphabet, padding in the middle, wrong length) the decoder reports failure; it neither invents bytes nor panics.", "quantifier": "every string", "why_tests_cant": "The set of malformed strings is unbounded; a test only shows one rejected string.", "anchors": ["anothertls/src/utils/base64.rs: decode"]}
{"id": "C03", "title": "Hexadecimal round trip", "statement": "Parsing the hexadecimal text printed for a byte string returns that byte string.", "quantifier": "every byte string", "why_tests_cant": "Needs every byte value in every position.", "anchors": ["anothertls/src/utils/bytes.rs: to_hex, from_hex"]}
{"id": "C04", "title": "Integer/byte-string conversions preserve the value", "statement": "Converting a byte string to a big integer gives its positional value, converting a non-negative integer to a (minimal or 32-byte, big- or little-endian) byte string and reading it back gives the same integer.", "quantifier": "every non-negative integer below 2^256 and every byte string", "why_tests_cant": "Faults sit at values with leading zero bytes, i.e. 1 in 256 random values, which tests with fixed vectors do not sample.", "anchors": ["anothertls/src/utils/bytes.rs: to_ibig_be, to_ibig_le, ibig_to_vec, ibig_to_32bytes, to_u16, to_u128_be, to_u128_be_fill"]}
{"id": "C05", "title": "PEM armour is parsed back", "statement": "Parsing a PEM text made of BEGIN line, Base64 lines and END line yields the payload bytes under the block title.", "quantifier": "every title and every payload, any line width", "why_tests_cant": "Payload length and line width are unbounded.", "anchors": ["anothertls/src/utils/pem.rs: get_pem_content_from_file"]}
{"id": "C06", "title": "SHA-256 computes FIPS 180-4 SHA-256", "statement": "For every message the 32-byte digest is the FIPS 180-4 digest.", "quantifier": "every message shorter than 2^53 bytes", "why_tests_cant": "Padding has a different shape for each residue modulo 64; test vectors reach a few residues.", "anchors": ["anothertls/src/hash/sha256.rs: Sha256::padd_input, calc_round, update, finalize, sha256"]}
{"id": "C07", "title": "SHA-384 computes FIPS 180-4 SHA-384", "statement": "For every message the 48-byte digest is the FIPS 180-4 digest.", "quantifier": "every message shorter than 2^117 bytes", "why_tests_cant": "Padding has a different shape for each residue modulo 128.", "anchors": ["anothertls/src/hash/sha384.rs: Sha384::padd_input, calc_round, update, finalize, sha384"]}
{"id": "C08", "title": "Transcript hashing does not depend on chunking and reading the digest does not disturb it", "statement": "Feeding a message in any sequence of chunks, with digests taken at any points in between, gives the same digest as feeding it at once.", "quantifier": "every sequence of updates and digest reads", "why_tests_cant": "The number of interleavings of chunk boundaries with block boundaries is unbounded.", "anchors": ["anothertls/src/hash/mod.rs: TranscriptHash", "anothertls/src/hash/sha256.rs: update, finalize", "anothertls/src/hash/sha384.rs: update, finalize"]}
{"id": "C09", "title": "HMAC computes RFC 2104", "statement": "For every key and message HMAC-SHA256 and HMAC-SHA384 equal the RFC 2104 function with the hash's own block size.", "quantifier": "every key of every length and every message", "why_tests_cant": "The key path switches on the key length; only some lengths are in test vectors.", "anchors": ["anothertls/src/hash/hmac.rs: Hmac::new, update, result"]}
{"id": "C10", "title": "HKDF computes RFC 5869 and refuses too long outputs", "statement": "Extract and expand equal RFC 5869 for every salt, key, info and requested length up to 255 hash lengths; longer requests are refused; the counter never overflows.", "quantifier": "every salt, input key, info and output length", "why_tests_cant": "Output length and counter range are unbounded in tests.", "anchors": ["anothertls/src/hash/hkdf.rs: HKDF::extract, expand"]}
{"id": "C11", "title": "AES block cipher is FIPS 197 and decryption inverts encryption", "statement": "For 128-, 192- and 256-bit keys block encryption equals FIPS 197 and decrypting an encrypted block returns the block.", "quantifier": "every key and every 16-byte block", "why_tests_cant": "2^128 blocks times 2^256 keys.", "anchors": ["anothertls/src/crypto/aes/cipher.rs: AES::init, encrypt, decrypt, get_expanded_key, mix_columns"]}
{"id": "C12", "title": "AES-GCM is NIST SP 800-38D for 96-bit nonces", "statement": "Ciphertext and tag equal GCM-AE of SP 800-38D for every key, 96-bit nonce, associated data and plaintext.", "quantifier": "every key, 96-bit nonce, associated data and plaintext", "why_tests_cant": "Tail blocks and field multiplication have unbounded input space.", "anchors": ["anothertls/src/crypto/aes/gcm.rs: Gcm::gmult, gcm, encrypt"]}
{"id": "C13", "title": "ChaCha20 encrypts every byte as RFC 8439 prescribes", "statement": "The ciphertext is the plaintext XORed byte by byte with the RFC 8439 key stream; in particular no plaintext block is emitted unencrypted.", "quantifier": "every 32-byte key, 12-byte nonce, counter and message", "why_tests_cant": "The fault is tied to particular message lengths; tests use lengths that are not multiples of 64.", "anchors": ["anothertls/src/crypto/chacha20/cipher.rs: ChaCha20::init, qround, get_block, encrypt"]}
{"id": "C14", "title": "Poly1305 and the ChaCha20-Poly1305 tag input follow RFC 8439", "statement": "The tag equals the RFC 8439 Poly1305 of pad(aad) || pad(ciphertext) || lengths under the one-time key.", "quantifier": "every one-time key and message", "why_tests_cant": "130-bit modular arithmetic over unbounded messages.", "anchors": ["anothertls/src/crypto/chacha20/poly1305.rs: key_gen, mac, pad16, get_mac_data"]}
{"id": "C15", "title": "AEAD round trip", "statement": "For each negotiated cipher, decrypting what encrypt produced under the same key, nonce and additional data returns the plaintext.", "quantifier": "every key of the right size, 12-byte nonce, additional data and plaintext", "why_tests_cant": "Unbounded data and lengths.", "anchors": ["anothertls/src/crypto/aes/gcm.rs: encrypt, decrypt", "anothertls/src/crypto/chacha20/poly1305.rs: encrypt, decrypt", "anothertls/src/crypto/ciphersuite.rs: Cipher"]}
{"id": "C16", "title": "AEAD decryption releases data only for the right tag", "statement": "Decryption returns data only if the presented tag is byte for byte the tag the encryptor would attach to that ciphertext and additional data; otherwise it reports BadRecordMac and releases nothing.", "quantifier": "every key, nonce, additional data, ciphertext and presented tag of any length", "why_tests_cant": "All tags and tag lengths.", "anchors": ["anothertls/src/crypto/aes/gcm.rs: decrypt", "anothertls/src/crypto/chacha20/poly1305.rs: decrypt"]}
{"id": "C17", "title": "Record framing round trip", "statement": "Serialising a record and parsing the bytes (with anything after it) gives the same type, version and fragment and consumes exactly the record.", "quantifier": "every record type, every fragment up to 2^16-1 bytes, any following bytes", "why_tests_cant": "Unbounded lengths.", "anchors": ["anothertls/src/net/record.rs: Record::new, from_raw, as_bytes"]}
{"id": "C18", "title": "Record parsing never panics", "statement": "Whatever bytes the peer sends, record parsing returns a record or an error.", "quantifier": "every byte string", "why_tests_cant": "Panics sit at a three byte wide window of lengths.", "anchors": ["anothertls/src/net/record.rs: Record::from_raw"]}
{"id": "C19", "title": "Protected records arrive intact and in order", "statement": "For every sequence of messages protected by one endpoint, the peer holding the same keys opens them in order to the same content types and contents, across the switch from handshake to application keys.", "quantifier": "every key set, every cipher suite, every message sequence", "why_tests_cant": "Unbounded histories; sequence numbers couple the two ends.", "anchors": ["anothertls/src/net/record.rs: RecordPayloadProtection::encrypt, decrypt"]}
{"id": "C20", "title": "Nonces never repeat under one key", "statement": "The per-record nonces produced by a traffic key are pairwise distinct.", "quantifier": "every history of fewer than 2^64 records under a key", "why_tests_cant": "2^64 records cannot be run.", "anchors": ["anothertls/src/net/key_schedule.rs: Key::get_per_record_nonce"]}
{"id": "C21", "title": "Application data is never sent unprotected", "statement": "tls_write puts no byte on the wire unless record protection is installed, and what it writes is the encrypted record.", "quantifier": "every stream state and every payload", "why_tests_cant": "Every reachable stream state.", "anchors": ["anothertls/src/net/stream.rs: TlsStream::tls_write"]}
{"id": "C22", "title": "tls_write emits a well-formed record for every payload", "statement": "The bytes written by one tls_write form exactly one record whose length field matches its body.", "quantifier": "every payload", "why_tests_cant": "The length field is 16 bits while the payload is unbounded.", "anchors": ["anothertls/src/net/stream.rs: tls_write", "anothertls/src/net/record.rs: encrypt"]}
{"id": "C23", "title": "Bytes written with tls_write are returned by the peer's tls_read", "statement": "If the peer reads with a large enough buffer, successive tls_read calls return the payloads of the successive tls_write calls.", "quantifier": "every sequence of payloads and every segmentation of the TCP stream", "why_tests_cant": "Segmentations and histories are unbounded.", "anchors": ["anothertls/src/net/stream.rs: tls_read, tls_write, tcp_read"]}
{"id": "C24", "title": "Buffered handshake output keeps order and loses nothing", "statement": "Every byte handed to write_record reaches the socket exactly once, in order, by the time flush returns; alerts do not overtake it.", "quantifier": "every sequence of write_record, flush, write_alert and tls_write operations", "why_tests_cant": "Unbounded operation sequences around the 2048-byte threshold.", "anchors": ["anothertls/src/net/stream.rs: write_record, flush, write_alert"]}
{"id": "C25", "title": "Key schedule is RFC 8446 section 7.1", "statement": "Handshake and application traffic secrets, keys, IVs and finished keys equal the RFC 8446 derivation from the ECDHE secret and the transcript hashes.", "quantifier": "every shared secret, transcript and cipher suite", "why_tests_cant": "Derivations chain over unbounded transcripts.", "anchors": ["anothertls/src/net/key_schedule.rs: KeySchedule::do_key_schedule, get_hkdf_expand_label, Key::from_hkdf, WriteKeys::handshake_keys, application_keys_from_master_secret"]}
{"id": "C26", "title": "Client and server end up with mirrored keys", "statement": "From the same shared secret, transcript and cipher suite the client's write key is the server's read key and vice versa, for handshake and application keys.", "quantifier": "every shared secret, transcript and cipher suite", "why_tests_cant": "Holds over all secrets and transcripts.", "anchors": ["anothertls/src/net/key_schedule.rs: WriteKeys", "anothertls/src/net/record.rs: RecordPayloadProtection::new, generate_application_keys"]}
{"id": "C27", "title": "Modular helpers are correct", "statement": "The modular inverse times its argument is 1 modulo n for every argument coprime to n, and rem_euclid is the Euclidean remainder.", "quantifier": "every modulus n > 1 and every non-negative argument (every integer for rem_euclid)", "why_tests_cant": "Unbounded integers.", "anchors": ["anothertls/src/crypto/ellipticcurve/math.rs: inv, rem_euclid"]}
{"id": "C28", "title": "P-256 point multiplication computes the group multiple", "statement": "Multiplying a curve point by a scalar gives the scalar multiple in the elliptic-curve group (the point at infinity reported as (0,0)).", "quantifier": "every point of the curve (including infinity) and every integer scalar", "why_tests_cant": "2^256 scalars; exceptional cases of the addition formulas have negligible probability in tests.", "anchors": ["anothertls/src/crypto/ellipticcurve/math.rs: multiply, add", "anothertls/src/crypto/ellipticcurve/math/jacobian.rs: jacobian_double, jacobian_add, jacobian_multiply", "anothertls/src/crypto/ellipticcurve/point.rs: to_point, from_point"]}
{"id": "C29", "title": "ECDSA signatures verify", "statement": "Every signature returned by signing a hash with a private key is accepted by verification with the matching public key.", "quantifier": "every private key in [1, n), every hash value and every stream of nonces", "why_tests_cant": "2^256 keys and nonces.", "anchors": ["anothertls/src/crypto/ellipticcurve/ecdsa.rs: Ecdsa::sign, verify", "anothertls/src/crypto/ellipticcurve/privatekey.rs: get_public_key"]}
{"id": "C30", "title": "ECDSA verification implements the FIPS 186 acceptance condition", "statement": "Verification accepts iff the key is a curve point, 1 <= r,s < n and the x coordinate of u1*G + u2*Q is r modulo n; out-of-range or zero signature components are always refused.", "quantifier": "every public key read from unsigned bytes, every hash of at most 32 bytes and every pair of integers as signature", "why_tests_cant": "All signatures, including adversarial ones.", "anchors": ["anothertls/src/crypto/ellipticcurve/ecdsa.rs: verify", "anothertls/src/crypto/ellipticcurve/curve.rs: contains"]}
{"id": "C31", "title": "DER encoding of signatures is faithful", "statement": "Decoding the DER encoding of a signature gives the same r and s.", "quantifier": "every pair of integers in [1, 2^256)", "why_tests_cant": "Only fails for integers with a zero top byte.", "anchors": ["anothertls/src/crypto/ellipticcurve/signature.rs: Signature::to_der, from_der", "anothertls/src/utils/bytes.rs: ibig_to_32bytes"]}
{"id": "C32", "title": "X25519 computes RFC 7748 X25519", "statement": "The scalar multiplication equals the RFC 7748 function (clamped scalar, masked u coordinate, canonical output) and no intermediate limb overflows 64 bits.", "quantifier": "every 32-byte scalar and 32-byte u coordinate", "why_tests_cant": "2^512 inputs; overflow bugs hide in rare carries.", "anchors": ["anothertls/src/crypto/ellipticcurve/math/curve25519.rs: scalarmult, fmul, carry25519, pack25519, finverse"]}
{"id": "C33", "title": "Both ends derive the same ECDHE secret", "statement": "The secret the client derives from the server's key share equals the one the server derives from the client's key share.", "quantifier": "every pair of private scalars", "why_tests_cant": "Fails only for key shares with a zero first byte; group arguments are needed for the rest.", "anchors": ["anothertls/src/crypto/ellipticcurve/math.rs: multiply", "anothertls/src/net/key_schedule.rs: KeySchedule::from_handshake", "anothertls/src/net/extensions/key_share.rs: KeyShareEntry"]}
{"id": "C34", "title": "Handshake message framing round trip", "statement": "Framing a body as a handshake message and parsing it returns type and body; a header that promises more bytes than present is reported, not a panic.", "quantifier": "every message type, every body below 2^24 bytes, any trailing bytes", "why_tests_cant": "Unbounded lengths.", "anchors": ["anothertls/src/net/handshake/mod.rs: Handshake::from_raw, to_bytes"]}
{"id": "C35", "title": "ClientHello survives its own encoding", "statement": "Parsing the encoded ClientHello gives the same random, session id, cipher suites and recognised extensions.", "quantifier": "every ClientHello the client can build", "why_tests_cant": "Unbounded server names, key shares.", "anchors": ["anothertls/src/net/client/client_hello.rs: ClientHello::as_bytes, from_raw", "anothertls/src/net/extensions/client.rs"]}
{"id": "C36", "title": "ServerHello survives its own encoding", "statement": "Parsing the encoded ServerHello gives the same random, session id, cipher suite and key share.", "quantifier": "every ServerHello the server can build", "why_tests_cant": "All randoms, session ids, key shares.", "anchors": ["anothertls/src/net/server/server_hello.rs: ServerHello::as_bytes, from_raw", "anothertls/src/net/extensions/server.rs"]}
{"id": "C37", "title": "Hello parsing always terminates with a result", "statement": "Parsing any bytes as ClientHello, ServerHello or extensions terminates and returns a value or an error instead of panicking.", "quantifier": "every byte string", "why_tests_cant": "Adversarial inputs are unbounded.", "anchors": ["anothertls/src/net/client/client_hello.rs: from_raw", "anothertls/src/net/server/server_hello.rs: from_raw", "anothertls/src/net/extensions/client.rs: from_client_hello"]}
{"id": "C38", "title": "Cipher suite negotiation", "statement": "The server answers with a suite it supports that the client offered, prefers ChaCha20-Poly1305 when offered, and refuses with HandshakeFailure exactly when no supported suite was offered.", "quantifier": "every list of offered suites", "why_tests_cant": "Lists are unbounded.", "anchors": ["anothertls/src/net/server/server_hello.rs: from_client_hello", "anothertls/src/crypto/ciphersuite.rs: CipherSuite::new"]}
{"id": "C39", "title": "Only TLS 1.3 is negotiated", "statement": "The server proceeds only with clients that offer TLS 1.3 in supported_versions.", "quantifier": "every ClientHello", "why_tests_cant": "All extension lists, including the absent extension.", "anchors": ["anothertls/src/net/server/server_hello.rs: from_client_hello", "anothertls/src/net/extensions/supported_versions.rs"]}
{"id": "C40", "title": "Configured server name is enforced", "statement": "If a server name is configured, a ClientHello naming a different host is refused with UnrecognizedName and one naming that host (or naming none) is not refused for this reason.", "quantifier": "every ClientHello and configuration", "why_tests_cant": "All names.", "anchors": ["anothertls/src/net/server/server_hello.rs: from_client_hello"]}
{"id": "C41", "title": "Any X25519 key share is honoured", "statement": "If the client offers an X25519 share (in whatever position among its shares) the server uses that share for the key exchange; offering other groups as well never crashes it.", "quantifier": "every list of key shares", "why_tests_cant": "Lists are unbounded, order matters.", "anchors": ["anothertls/src/net/server/server_hello.rs: from_client_hello", "anothertls/src/net/client/client_hello.rs: get_public_key_share", "anothertls/src/net/key_schedule.rs: from_handshake"]}
{"id": "C42", "title": "Server accepts only after a correct client Finished", "statement": "accept returns a stream only if the client sent, under the handshake keys, a Finished message whose verify_data matches the transcript.", "quantifier": "every sequence of records received by the server", "why_tests_cant": "All record sequences, including adversarial ones.", "anchors": ["anothertls/src/net/server/connection.rs: ServerHandshake::do_handshake, handle_client_finish"]}
{"id": "C43", "title": "Client certificate authentication cannot be bypassed", "statement": "With a client CA configured, accept returns a stream only if the client presented a certificate that is in its validity period, signed by that CA and approved by the custom function, and proved possession of its key over the transcript, before a correct Finished.", "quantifier": "every sequence of records received by the server and every configuration", "why_tests_cant": "All record sequences.", "anchors": ["anothertls/src/net/server/connection.rs: handle_client_certificate, handle_client_certificate_verify, handle_client_finish", "anothertls/src/net/handshake/certificate.rs: from_hello, has_signed, is_certificate_valid"]}
{"id": "C44", "title": "A handshake error is final", "statement": "Once a handshake step has recorded or returned an error the connection is never handed out, whatever is received afterwards.", "quantifier": "every sequence of records after the error", "why_tests_cant": "Unbounded continuations.", "anchors": ["anothertls/src/net/server/connection.rs: ServerHsState::FinishWithError", "anothertls/src/net/client/connection.rs: ClientHsState::FinishWithError"]}
{"id": "C45", "title": "Client hands out a stream only for a server that proved its key", "statement": "connect returns a stream only if the server presented a certificate, signed the transcript with its key and sent a Finished with the right verify_data.", "quantifier": "every sequence of bytes received by the client", "why_tests_cant": "All record sequences.", "anchors": ["anothertls/src/net/client/connection.rs: ClientHandshake::do_handshake, handle_server_certificate_verify, handle_server_finish"]}
{"id": "C46", "title": "Handshake outcome does not depend on TCP segmentation", "statement": "For a fixed byte stream from the peer the handshake result is the same however TCP splits the stream into reads.", "quantifier": "every byte stream and every segmentation", "why_tests_cant": "Segmentations are unbounded.", "anchors": ["anothertls/src/net/server/connection.rs: do_handshake", "anothertls/src/net/client/connection.rs: do_handshake", "anothertls/src/net/stream.rs: tls_read"]}
{"id": "C47", "title": "Data following the Finished message is not lost", "statement": "Application records the peer sends right after its Finished are delivered by the following tls_read even if they arrive in the same TCP read.", "quantifier": "every arrival pattern", "why_tests_cant": "Arrival patterns are unbounded.", "anchors": ["anothertls/src/net/server/connection.rs: do_handshake, handle_handshake_record", "anothertls/src/net/client/connection.rs: do_handshake"]}
{"id": "C48", "title": "Alert codes follow RFC 8446", "statement": "Each official error is sent with its RFC 8446 code and fatal level (close_notify with warning level), and decoding the code gives the error back.", "quantifier": "every error value and every code byte", "why_tests_cant": "Every variant of the mapping.", "anchors": ["anothertls/src/net/alert.rs: TlsError::new, as_u8, AlertLevel::get_from_error"]}
{"id": "C49", "title": "An alert is never answered with an alert", "statement": "When the handshake ends because the peer sent an alert or the connection broke, no alert is written; for every other error exactly one alert is written.", "quantifier": "every handshake run", "why_tests_cant": "All histories.", "anchors": ["anothertls/src/net/server/connection.rs: do_handshake_with_error", "anothertls/src/net/client/connection.rs: do_handshake_with_error", "anothertls/src/net/stream.rs: write_alert"]}
{"id": "C50", "title": "Certificate fields acted upon are covered by the CA's signature", "statement": "If a presented certificate is accepted as signed by the CA, the validity period and the subject the library acts upon are those of the bytes the CA signed.", "quantifier": "every byte string presented as a certificate", "why_tests_cant": "Adversarial encodings are unbounded.", "anchors": ["anothertls/src/utils/x509.rs: X509Builder::from_raw, parse", "anothertls/src/net/handshake/certificate.rs: has_signed"]}
{"id": "C51", "title": "UTCTime is converted to the right Unix time", "statement": "The Unix time computed for a certificate time equals the civil-calendar value.", "quantifier": "every valid UTCTime from 1970 to 2049", "why_tests_cant": "Calendar corner cases; the test checks two dates.", "anchors": ["anothertls/src/utils/x509.rs: UtcTime::from_utc_timestamp, get_unix_timestamp"]}
{"id": "C52", "title": "Validity decision is the interval test", "statement": "A certificate is time-valid iff notBefore <= now <= notAfter.", "quantifier": "every pair of times and every current time", "why_tests_cant": "All times.", "anchors": ["anothertls/src/utils/x509.rs: Validity::is_valid"]}
{"id": "C53", "title": "X.509 parsing always ends with a result", "statement": "Parsing any bytes as a certificate terminates with a certificate or an error and never panics.", "quantifier": "every byte string", "why_tests_cant": "Adversarial encodings are unbounded.", "anchors": ["anothertls/src/utils/x509.rs: X509Builder::parse", "anothertls/src/utils/der.rs: der_parse, get_len"]}
{"id": "C54", "title": "CertificateVerify content separates roles and transcripts", "statement": "The signed content is RFC 8446 4.4.3's, and contents for different roles or different transcript hashes differ.", "quantifier": "every pair of roles and transcript hashes", "why_tests_cant": "Injectivity over all hashes.", "anchors": ["anothertls/src/net/handshake/certificate.rs: get_certificate_verify_for_handshake", "anothertls/src/net/handshake/certificate.rs: get_certificate_verify_for_handshake"]}
{"id": "C55", "title": "Random byte requests return the requested number of bytes and ranges are respected", "statement": "bytes(n) returns n bytes; between(min,max) returns a value within the documented range.", "quantifier": "every generator state and request", "why_tests_cant": "All states and sizes.", "anchors": ["anothertls/src/rand/simplerng.rs", "anothertls/src/rand/urandom.rs"]}
{"id": "C56", "title": "Configuration rules", "statement": "A server configuration is produced iff certificate and key are present, and a custom verify function is accepted only together with a client CA. A client configuration is produced iff no client certificate was given without its key. A configuration holds exactly what was set last.", "quantifier": "every builder state", "why_tests_cant": "All builder call sequences.", "anchors": ["anothertls/src/net/server/config.rs: ServerConfigBuilder::build", "anothertls/src/net/client/config.rs: ClientConfigBuilder::build"]}
{"id": "C57", "title": "Signature algorithm lists survive their own encoding", "statement": "Parsing the encoded signature_algorithms extension gives the advertised schemes.", "quantifier": "every list of schemes", "why_tests_cant": "Lists are unbounded.", "anchors": ["anothertls/src/net/extensions/signature_algorithm.rs: server_as_bytes, server_parse"]}
{"id": "C58", "title": "Key log lines are complete and only written when asked", "statement": "Secrets are logged only if a key log is configured, and each line is label, client random and secret in hexadecimal from which the secret is recoverable.", "quantifier": "every secret, random and configuration", "why_tests_cant": "All secrets.", "anchors": ["anothertls/src/utils/keylog.rs: KeyLog"]}
{"id": "C59", "title": "Change-cipher-spec records are inert", "statement": "Inserting change_cipher_spec records anywhere after the first flight does not change the outcome of the handshake.", "quantifier": "every record sequence and every insertion", "why_tests_cant": "Unbounded interleavings.", "anchors": ["anothertls/src/net/server/connection.rs: handle_handshake_record", "anothertls/src/net/client/connection.rs: handle_handshake_record"]}
{"id": "C60", "title": "Honest client and server complete the handshake with matching keys", "statement": "A client and a server of this library with matching configuration, connected by a faithful transport, both finish and hold mirrored application keys.", "quantifier": "every choice of random values, keys and certificates meeting the stated conditions", "why_tests_cant": "All randomness.", "anchors": ["anothertls/src/net/client/connection.rs", "anothertls/src/net/server/connection.rs"]}
{"id": "C61", "title": "Padded records from any RFC 8446 peer are opened", "statement": "A protected record built as RFC 8446 5.2 prescribes, with any amount of zero padding, opens to exactly the content and type its sender put in.", "quantifier": "every suite, key, sequence number, type, content and padding length", "why_tests_cant": "Contents and paddings are unbounded.", "anchors": ["anothertls/src/net/record.rs: RecordPayloadProtection::decrypt"]}
{"id": "C62", "title": "Only authentic records are delivered", "statement": "If a received record yields content, its body is the AEAD encryption of that content and type under the peer key and the nonce of the current sequence number with the record header as additional data.", "quantifier": "every received record and connection state", "why_tests_cant": "Adversarial records are unbounded.", "anchors": ["anothertls/src/net/record.rs: RecordPayloadProtection::decrypt"]}
{"id": "C63", "title": "Opening a protected record always returns", "statement": "Whatever protected record the peer sends, processing it ends with content or an error, never a panic.", "quantifier": "every received record and connection state", "why_tests_cant": "Adversarial records are unbounded.", "anchors": ["anothertls/src/net/record.rs: RecordPayloadProtection::decrypt"]}
{"id": "C64", "title": "RFC ClientHellos are understood", "statement": "Every ClientHello encoded as RFC 8446 prescribes is parsed to its random, session id, known cipher suites in order, and the server name, versions and key shares it carries; unknown suites, groups and extensions are ignored.", "quantifier": "every well-formed ClientHello message", "why_tests_cant": "Unbounded lists of suites, groups and extensions from any client implementation.", "anchors": ["anothertls/src/net/client/client_hello.rs: ClientHello::from_raw", "anothertls/src/net/extensions/client.rs: from_client_hello", "anothertls/src/net/extensions/key_share.rs: KeyShare::parse"]}
{"id": "C65", "title": "All-zero shared secrets are refused", "statement": "A peer cannot force a shared secret it knows in advance: when the X25519 result is all zero (the peer's share has small order) the handshake is refused.", "quantifier": "every private key and every share bytes of the peer", "why_tests_cant": "A malicious share is one of a handful of values among 2^256.", "anchors": ["anothertls/src/net/key_schedule.rs: KeySchedule::from_handshake", "anothertls/src/crypto/ellipticcurve/math.rs: multiply"]}
{"id": "C66", "title": "tls_read returns only whole authentic application data", "statement": "Whatever bytes arrive, if tls_read returns data on a protected stream then this data is the complete content of one application_data record encrypted by the peer under the current key and sequence number, and it fits the caller's buffer; without protection application data is never delivered.", "quantifier": "every stream state, arriving bytes and buffer size", "why_tests_cant": "Attackers choose the bytes; tests only feed honest records.", "anchors": ["anothertls/src/net/stream.rs: TlsStream::tls_read", "anothertls/src/net/record.rs: RecordPayloadProtection::decrypt"]}
{"id": "C67", "title": "Every DER ECDSA signature is decoded", "statement": "Decoding the DER encoding of any pair (r, s), whatever bytes follow it, gives r and s and consumes exactly the encoding.", "quantifier": "all natural numbers r and s and all following bytes", "why_tests_cant": "Signatures have many lengths: leading zero bytes, sign bytes, long-form lengths.", "anchors": ["anothertls/src/crypto/ellipticcurve/signature.rs: Signature::from_der", "anothertls/src/utils/der.rs: der_parse, get_len"]}
{"id": "C68", "title": "Well-formed certificates are read and checked as RFC 5280 defines", "statement": "An RFC 5280 certificate with a P-256 key and an ECDSA signature is read to exactly its serial number, validity period, names, key and signature, and it counts as signed by a CA iff its signature is a valid ECDSA/SHA-256 signature of its to-be-signed part under the CA's key.", "quantifier": "every well-formed certificate, all names, dates, keys and signatures, every CA key", "why_tests_cant": "Certificates are unbounded and lengths are encoded differently depending on size.", "anchors": ["anothertls/src/utils/x509.rs: X509::from_raw, X509Builder::parse, X509::get_public_key", "anothertls/src/net/handshake/certificate.rs: Certificate::has_signed"]}
{"id": "C69", "title": "CertificateVerify by the holder of the key is accepted, and only that", "statement": "A CertificateVerify signed with the key of a certificate is accepted by the peer for that certificate and transcript; an accepted one carries a valid ECDSA/SHA-256 signature of RFC 8446's content under the certificate's key.", "quantifier": "every key, nonce, transcript, role and certificate", "why_tests_cant": "Signatures range over 2^256 nonces and keys, and encodings depend on the numeric size of r and s.", "anchors": ["anothertls/src/net/handshake/certificate.rs: Certificate::get_certificate_verify_for_handshake, Certificate::is_certificate_valid", "anothertls/src/crypto/ellipticcurve/ecdsa.rs"]}
{"id": "C70", "title": "Certificate messages carry the certificate", "statement": "The Certificate message sent for a certificate is RFC 8446 4.4.2's, and from a received one the first certificate of the chain is taken, exactly if it parses and is in its validity period.", "quantifier": "every certificate, request context, chain, extension and clock", "why_tests_cant": "Certificates, contexts and chains are unbounded.", "anchors": ["anothertls/src/net/handshake/certificate.rs: Certificate::from_hello, Certificate::get_certificate_for_handshake"]}
{"id": "C71", "title": "The server's flight is RFC 8446's", "statement": "Whenever accept returns a stream, the bytes written are a ServerHello record, a change_cipher_spec record iff the client sent a session id, and protected records with exactly EncryptedExtensions, CertificateRequest (iff a client CA is configured), Certificate, CertificateVerify and Finished as RFC 8446 defines them for the transcript.", "quantifier": "every client, arrival pattern, configuration and randomness", "why_tests_cant": "All transcripts; a test compares one recorded handshake.", "anchors": ["anothertls/src/net/server/connection.rs: handle_client_hello", "anothertls/src/net/stream.rs: write_record, flush"]}
{"id": "C72", "title": "The server's stream uses the application traffic keys of the transcript", "statement": "A stream returned by accept sends under the server's and receives under the client's RFC 8446 application traffic key for the shared secret and the transcript through the server's Finished, with sequence numbers starting at 0.", "quantifier": "every client, arrival pattern, configuration and randomness", "why_tests_cant": "All transcripts and secrets.", "anchors": ["anothertls/src/net/server/connection.rs: handle_client_finish", "anothertls/src/net/record.rs: generate_application_keys"]}
{"id": "C73", "title": "Everything the client sends after the server's Finished is RFC 8446's flight", "statement": "In a completed handshake the client sends, in protected records with sequence numbers from 0 under its handshake key: if the server asked for a certificate, a Certificate message with the context of the request and the configured certificate (an empty list without one) and, with a certificate, a CertificateVerify message; then its Finished.", "quantifier": "every completed client handshake, every request of the server", "why_tests_cant": "All histories.", "anchors": ["anothertls/src/net/client/connection.rs: handle_server_finish, handle_certificate_request"]}
{"id": "C74", "title": "The stream the client hands out uses the application traffic keys", "statement": "After a completed client handshake the stream protects with the client's and opens with the server's application traffic key of RFC 8446 for the shared secret and the transcript through the server's Finished, from sequence number 0.", "quantifier": "every completed client handshake", "why_tests_cant": "All histories.", "anchors": ["anothertls/src/net/client/connection.rs: handle_server_finish", "anothertls/src/net/record.rs: RecordPayloadProtection::generate_application_keys"]}
{"id": "C75", "title": "The server completes with every conforming client", "statement": "If a client's hello can be answered and its further records carry what RFC 8446 prescribes (the requested proof of identity, then Finished, protected with the client's handshake key, with any padding and change_cipher_spec records), accept returns a stream, whatever the grouping of the records into reads; and the server sends its whole flight having read nothing but the hello.", "quantifier": "every configuration, random values, client hello, conforming client flight and grouping of whole records", "why_tests_cant": "All client implementations and all groupings.", "anchors": ["anothertls/src/net/server/connection.rs: do_handshake, handle_handshake_record, handle_handshake_encrypted_record, handle_client_finish"]}
{"id": "C76", "title": "The client completes with every conforming server", "statement": "If a server answers the client's hello and its further records carry what RFC 8446 prescribes (EncryptedExtensions, any certificate requests, an acceptable certificate, a valid CertificateVerify, Finished; protected with the server's handshake key, one or several messages per record, with any padding and change_cipher_spec records), connect returns a stream, whatever the grouping of the records into reads; and the client sends its hello before it reads anything.", "quantifier": "every configuration, random values, conforming server flight and grouping of whole records", "why_tests_cant": "All server implementations, all ways to pack the messages into records and records into reads.", "anchors": ["anothertls/src/net/client/connection.rs: do_handshake, handle_server_hello, handle_handshake_encrypted_record, handle_encrypted_extension, handle_certificate_request, handle_server_certificate, handle_server_certificate_verify, handle_server_finish"]}
{"id": "C77", "title": "A whole session works end to end", "statement": "A client and a server of the library with matching configurations complete the handshake, and then, for every sequence of tls_write and tls_read calls on the two ends, every tls_read returns the next payload the other end wrote, unchanged and in order, in both directions.", "quantifier": "every matching pair of configurations, all random values, all sequences of calls and payloads on either end, every arrival pattern", "why_tests_cant": "Configurations, random values, call sequences, payloads and arrival patterns are unbounded.", "anchors": ["anothertls/src/net/client/connection.rs: ClientConnection::connect", "anothertls/src/net/server/connection.rs: ServerConnection", "anothertls/src/net/stream.rs: tls_read, tls_write"]}
{"id": "C78", "title": "The key log states the secrets of the session on the wire", "statement": "When a handshake completes with a key log configured, the log gets exactly four lines: the two handshake traffic secrets and the two application traffic secrets that RFC 8446 derives for exactly the messages exchanged, each under the random value of the ClientHello on the wire and the label of its own direction, on the server and on the client; with no key log configured it gets none.", "quantifier": "every configuration, all random values, every peer and every byte sequence received with which the handshake completes", "why_tests_cant": "A wrong label, a swapped direction or another random value leaves the handshake itself working; a test with one capture only checks that capture.", "anchors": ["anothertls/src/utils/keylog.rs: KeyLog", "anothertls/src/net/server/connection.rs: ServerHandshake", "anothertls/src/net/client/connection.rs: ClientHandshake"]}
{"id": "C79", "title": "A private key file gives the key in it", "statement": "The key read from a PEM file with an RFC 5915 private key is the P-256 key encoded in it, with or without the optional curve and public key, whatever the layout of the file; a key for another curve is refused.", "quantifier": "every key, every combination of optional fields, every file layout", "why_tests_cant": "All keys and layouts.", "anchors": ["anothertls/src/crypto/ellipticcurve/privatekey.rs: PrivateKey::from_pem", "anothertls/src/utils/pem.rs: get_pem_content_from_file", "anothertls/src/net/server/config.rs: add_privkey_pem", "anothertls/src/net/client/config.rs: add_client_key_pem"]}
{"id": "C80", "title": "A certificate file gives the end-entity certificate", "statement": "The certificate read from a PEM file is the first one in it (the end-entity certificate of a chain file), byte for byte, whether lines end with LF or CRLF.", "quantifier": "every certificate, every number of certificates in the file, every layout and line ending", "why_tests_cant": "All files.", "anchors": ["anothertls/src/net/handshake/certificate.rs: Certificate::from_pem, from_pem_x509", "anothertls/src/utils/pem.rs: get_pem_content_from_file", "anothertls/src/net/server/config.rs: add_cert_pem, add_client_cert_ca"]}
{"id": "C81", "title": "The server completes the handshake with every client that follows RFC 8446", "statement": "To every ClientHello of RFC 8446 that offers TLS 1.3, one of the three suites and an X25519 share, the server answers with the messages of a server that follows RFC 8446 (before reading anything else), and with every client that ends the handshake as RFC 8446 prescribes, with a certificate of the client CA if there is one, it completes the handshake and ends with the application traffic keys of RFC 8446.", "quantifier": "every server configuration, all random values and signing nonces, every client described by RFC 8446 alone (any extensions, session id, further groups and suites), every coalescing of the messages into records and of the records into reads", "why_tests_cant": "All peers, not only those built with this library.", "anchors": ["anothertls/src/net/server/connection.rs: ServerConnection::accept, do_handshake_with_error, handle_handshake_record, handle_client_hello", "anothertls/src/net/client/client_hello.rs: ClientHello::from_raw", "anothertls/src/net/server/server_hello.rs: ServerHello::from_client_hello"]}
{"id": "C82", "title": "The client completes the handshake with every server that follows RFC 8446", "statement": "Against every server that answers its ClientHello as RFC 8446 prescribes (a ServerHello with an offered suite and an X25519 share, EncryptedExtensions, optionally a CertificateRequest, a P-256 certificate in its validity period, a valid CertificateVerify and Finished, protected with the handshake keys), the client completes the handshake, proves its own certificate when asked (or says that it has none), and ends with the application traffic keys of RFC 8446.", "quantifier": "every configuration, all random values, every server described by RFC 8446 alone, every coalescing of the messages into records and of the records into reads", "why_tests_cant": "All peers, not only those built with this library.", "anchors": ["anothertls/src/net/client/connection.rs: ClientConnection::connect, do_handshake_with_error, handle_handshake_record", "anothertls/src/net/handshake/certificate.rs: Certificate, CertificateVerify"]}
{"id": "C83", "title": "The client connects only to the server it was configured for", "statement": "When connect returns a stream, the server proved possession of the key of a certificate that is valid now and is for the configured server name.", "quantifier": "every configuration, all random values, every server", "why_tests_cant": "Servers, certificates and names are unbounded.", "anchors": ["anothertls/src/net/client/connection.rs: handle_server_certificate, handle_server_certificate_verify", "anothertls/src/net/client/config.rs: server_name"]}
{"id": "C84", "title": "A handshake never loops forever", "statement": "Whatever the peer sends, accept and connect come to an end when no more input arrives: the loops over reads, records, messages and extensions and the recursion over the certificate all end, after a number of rounds bounded by the size of the input.", "quantifier": "every configuration, every state of a handshake, every sequence of reads, every byte string given to a parser", "why_tests_cant": "A loop that never ends on some input cannot be ruled out by running other inputs.", "anchors": ["anothertls/src/net/server/connection.rs: do_handshake", "anothertls/src/net/client/connection.rs: do_handshake, handle_handshake_record", "anothertls/src/net/extensions/mod.rs", "anothertls/src/utils/x509.rs: parse"]}
{"id": "C85", "title": "Whatever the network does, the application gets what the peer sent, in order", "statement": "After a handshake, whatever bytes arrive and however reads and writes are interleaved, the data that tls_read hands out is a subsequence, in order and without repetition, of the data of the peer's application records, and has no gap as long as no read failed; provided that no record on the wire is a forgery of the cipher.", "quantifier": "every stream after a handshake, every sequence of reads and writes, every sequence of incoming reads (dropped, repeated, reordered, altered, cut)", "why_tests_cant": "All behaviours of the network and all interleavings of calls.", "anchors": ["anothertls/src/net/stream.rs: tls_read, tls_write, tcp_read", "anothertls/src/net/record.rs: decrypt", "anothertls/src/net/key_schedule.rs: get_per_record_nonce"]}
{"id": "C86", "title": "Data is received whatever else an RFC 8446 peer sends after the handshake", "statement": "After the handshake tls_read returns, one after the other, the data of the peer's application records, also when the peer sends NewSessionTicket, KeyUpdate or close_notify messages between them.", "quantifier": "every cipher suite, every sequence of post-handshake messages and data of a peer that follows RFC 8446", "why_tests_cant": "All histories of a connection after the handshake.", "anchors": ["anothertls/src/net/stream.rs: tls_read", "anothertls/src/net/record.rs: decrypt"]}
{"id": "C87", "title": "The client only connects after a ServerHello that RFC 8446 permits", "statement": "When connect returns a stream, the server's first message is a ServerHello for TLS 1.3 that selects one of the offered suites and an X25519 share, sends back the client's session id and contains nothing the client did not ask for.", "quantifier": "every configuration, all random values, every sequence of bytes from the server", "why_tests_cant": "Every possible answer of a server.", "anchors": ["anothertls/src/net/server/server_hello.rs: ServerHello::from_raw", "anothertls/src/net/extensions/server.rs: from_server_hello", "anothertls/src/net/client/connection.rs: handle_server_hello"]}
{"id": "C88", "title": "A man in the middle cannot change what is negotiated", "statement": "If a client and a server both complete their handshakes and the Finished message accepted by one is the one the other made, then both have the same ClientHello, ServerHello, cipher suite and server certificate, unless the hash function has a collision.", "quantifier": "every pair of configurations, all random values, everything the network may do to the bytes in both directions", "why_tests_cant": "Every attacker on the network.", "anchors": ["anothertls/src/net/key_schedule.rs: KeySchedule", "anothertls/src/net/server/connection.rs: handle_client_finish", "anothertls/src/net/client/connection.rs: handle_server_finish", "anothertls/src/hash/mod.rs: TranscriptHash"]}
{"id": "C89", "title": "What the application writes reaches an RFC 8446 peer as written", "statement": "After a handshake every tls_write succeeds as long as the socket takes the bytes, and what all calls together put on the wire is a sequence of records of RFC 8446 (of at most 2^14 + 256 bytes) under the own application traffic secret with consecutive sequence numbers from 0, whose data is what was written, in order, whatever is read or fails to be read in between.", "quantifier": "every cipher suite, every completed handshake, every sequence of reads and writes, all data, everything that arrives", "why_tests_cant": "All histories of calls, all lengths.", "anchors": ["anothertls/src/net/stream.rs: tls_write", "anothertls/src/net/stream.rs: tls_read", "anothertls/src/net/record.rs: RecordPayloadProtection"]}
{"id": "C90", "title": "The client refuses server certificates outside their validity period", "statement": "connect returns a stream only if the validity period in the to-be-signed part of the server's certificate contains the current time.", "quantifier": "every server, every certificate, every time, everything that may arrive", "why_tests_cant": "All certificates and all times.", "anchors": ["anothertls/src/net/client/connection.rs: handle_server_certificate", "anothertls/src/net/handshake/certificate.rs: from_hello", "anothertls/src/utils/x509.rs: Validity"]}
{"id": "C91", "title": "Nothing that arrives crashes the program", "statement": "Whatever bytes arrive, accept, connect and tls_read return a value or an error; none of them panics.", "quantifier": "every sequence of reads from the network, every configuration, every buffer size", "why_tests_cant": "All byte strings from the network.", "anchors": ["anothertls/src/net/stream.rs: tls_read", "anothertls/src/net/server/connection.rs: accept", "anothertls/src/net/client/connection.rs: connect", "anothertls/src/net/record.rs: from_raw"]}
{"id": "C92", "title": "Only P-256 keys authenticate a peer", "statement": "connect only succeeds with a server, and accept with a client CA only with a client, whose CertificateVerify was made with the P-256 key in the signed part of its certificate. A certificate with a key on any other curve is refused with an error, whatever signature comes with it.", "quantifier": "every certificate with a key on any named curve in any form of SEC 1, every network input, every configuration", "why_tests_cant": "A certificate of another curve that is taken for P-256 is only noticed with a signature made for it.", "anchors": ["anothertls/src/utils/x509.rs: parse, get_public_key", "anothertls/src/net/handshake/certificate.rs: is_certificate_valid, has_signed"]}
{"id": "C93", "title": "Signatures are only accepted in DER", "statement": "The bytes accepted for an ECDSA signature are the DER encoding of the two numbers they are read as, as RFC 3279 and RFC 8446 4.4.3 require.", "quantifier": "every byte string received as a signature", "why_tests_cant": "All byte strings; tests only feed signatures made by an encoder.", "anchors": ["anothertls/src/crypto/ellipticcurve/signature.rs: from_der", "anothertls/src/utils/der.rs: from_u8, der_parse"]}
{"id": "C94", "title": "A connection to the example server cannot disturb others", "statement": "In the example servers, which serve one connection after the other, what is sent on a connection does not depend on earlier connections, and every RFC 8446 client that sends a request gets the page.", "quantifier": "every sequence of connections with every content, every configuration, clock and randomness", "why_tests_cant": "All histories of connections; a test makes a few connections with well-behaved clients.", "anchors": ["examples/src/bin/server_https.rs: main", "examples/src/bin/server_client_auth.rs: main", "anothertls/src/net/server/connection.rs: accept", "anothertls/src/net/stream.rs: tls_read, tls_write"]}
{"id": "C95", "title": "Only otsmr gets the page of the example with client authentication", "statement": "In the example with client authentication, what is sent on a connection only depends on the page if the client proved possession of the key of a certificate signed by the configured CA in whose signed part the common name is otsmr.", "quantifier": "every connection with every content, every page, every CA and configuration with the example's custom function", "why_tests_cant": "All byte strings a client may send for a certificate, including changed certificates; tests only use certificates as issued.", "anchors": ["examples/src/bin/server_client_auth.rs: main", "anothertls/src/utils/x509.rs: parse, Name::get", "anothertls/src/net/server/connection.rs: handle_client_certificate"]}
{"id": "C96", "title": "What is reported as written is what an RFC 8446 peer gets, whatever the socket takes", "statement": "Whatever part of each write the socket takes, what is on the wire are RFC 8446 records with exactly the payloads whose tls_write succeeded, in order, followed by at most the beginning of one more record.", "quantifier": "every history of outcomes of the socket writes, every sequence of calls, payload, suite and traffic secret", "why_tests_cant": "Failures in the middle of a record and what happens after them; tests run on sockets that take everything.", "anchors": ["anothertls/src/net/stream.rs: tls_write, tls_read", "anothertls/src/net/record.rs: encrypt"]}
{"id": "C97", "title": "The example client fetches the example server's page", "statement": "When client_https visits server_https (or client_client_auth visits server_client_auth) and the server has a certificate the client accepts, the client sends its request, the server answers with its page and the client prints exactly that page.", "quantifier": "every matching pair of configurations, server name, page, pair of random values and way TCP cuts and joins what is sent", "why_tests_cant": "Both programs block on each other and on TCP's segmentation; a test sees the segmentation of its own machine.", "anchors": ["examples/src/bin/client_https.rs: main", "examples/src/bin/client_client_auth.rs: main", "examples/src/bin/server_https.rs: main", "examples/src/bin/server_client_auth.rs: main", "anothertls/src/net/client/connection.rs: connect", "anothertls/src/net/server/connection.rs: accept"]}
{"id": "C98", "title": "The examples as shipped work while their certificates are valid", "statement": "With the certificate and key files of the repository, the example servers and clients start, and at every moment in which the certificates are valid client_https prints the page of server_https and client_client_auth that of server_client_auth.", "quantifier": "every moment of the certificates' validity, all random values and signing nonces of the two ends, every way TCP cuts and joins the records", "why_tests_cant": "A test runs at one moment with one set of random values; the shipped certificates' last valid day is a single day and the bug shows only then.", "anchors": ["examples/src/bin/server_https.rs", "examples/src/bin/client_https.rs", "examples/src/bin/server_client_auth.rs", "examples/src/bin/client_client_auth.rs", "examples/src/bin/config/server.cert", "examples/src/bin/config/server.key"]}
{"id": "C99", "title": "A key log shared by many connections stays readable", "statement": "When several connections, of clients or servers, append to one key log file, each line of each connection is a line of the file and the file has no other lines than these and those it had before.", "quantifier": "every number of connections and every order in which their writes on the file happen", "why_tests_cant": "A test sees one order of the writes; the orders that break lines need two connections within one append.", "anchors": ["anothertls/src/utils/keylog.rs: KeyLog::append_to_file"]}
{"id": "C100", "title": "The end of the peer's data is told from a cut connection", "statement": "An application that reads until tls_read returns UnexpectedMessage has received all the data its peer sent, and the peer has closed the connection with close_notify; an attacker who cuts the connection or changes bytes cannot bring this about.", "quantifier": "every sequence of reads and writes, every peer and everything the network can do to the bytes short of forging encryptions", "why_tests_cant": "A test cannot enumerate what an attacker may do with the bytes of a connection.", "anchors": ["anothertls/src/net/stream.rs: tls_read", "anothertls/src/net/stream.rs: write_alert", "anothertls/src/net/record.rs: RecordPayloadProtection::decrypt"]}
{"id": "C101", "title": "A HelloRetryRequest is answered or refused", "statement": "A client that gets a HelloRetryRequest for its ClientHello sends another ClientHello or ends the handshake with an error and a fatal alert; a server that gets a ClientHello with an empty list of key shares sends a HelloRetryRequest or ends the handshake with an error and a fatal alert. Neither crashes.", "quantifier": "every client and server configuration, every HelloRetryRequest and every ClientHello without shares that RFC 8446 allows, and whatever is sent after it", "why_tests_cant": "A test tries a few messages of a few servers; which group, cookie and order of extensions a server sends is open.", "anchors": ["anothertls/src/net/extensions/key_share.rs: KeyShareEntry::parse", "anothertls/src/net/server/server_hello.rs: ServerHello::from_raw", "anothertls/src/net/client/connection.rs: handle_server_hello", "anothertls/src/net/server/connection.rs: handle_client_hello"]}
{"id": "C102", "title": "A handshake message split over records is put together or refused", "statement": "RFC 8446 5.1 lets a peer send one handshake message in several records. When the ClientHello, the ServerHello or a later message arrives like this, the library does as if it had come in one record, or ends the handshake with an error and a fatal alert. It never crashes.", "quantifier": "every client and server configuration, every message, every place to split it and whatever follows", "why_tests_cant": "The places to split a message and the messages are not enumerable.", "anchors": ["anothertls/src/net/handshake/mod.rs: Handshake::from_raw", "anothertls/src/net/server/connection.rs: handle_client_hello, handle_handshake_encrypted_record", "anothertls/src/net/client/connection.rs: handle_server_hello, handle_handshake_encrypted_record"]}
{"id": "C103", "title": "Handshake messages that share a record are all handled", "statement": "RFC 8446 5.1 lets a peer send several handshake messages in one record. A client completes the handshake with a server, and a server with a client, however the peer distributes its protected handshake messages over records.", "quantifier": "every client and server configuration, every conforming peer, every grouping of the messages into records and of the records into reads", "why_tests_cant": "A test has one peer implementation with one grouping.", "anchors": ["anothertls/src/net/server/connection.rs: handle_handshake_encrypted_record", "anothertls/src/net/server/connection.rs: handle_client_certificate", "anothertls/src/net/server/connection.rs: handle_client_certificate_verify", "anothertls/src/net/client/connection.rs: handle_handshake_encrypted_record"]}
{"id": "C104", "title": "A client can read the alert that ends the handshake", "statement": "When a server gives up a handshake with an error of its own, the alert it sends can be read by a client that follows RFC 8446: it is in plaintext if the server has not answered the hello, else it follows the server's whole flight and is protected with the server's application traffic key and sequence number 0.", "quantifier": "every server configuration, random bytes, and every history of bytes from the client", "why_tests_cant": "Which keys protect the alert depends on where the handshake stops, and what precedes it on the wire on how the client's bytes are distributed over reads.", "anchors": ["anothertls/src/net/server/connection.rs: do_handshake_with_error", "anothertls/src/net/server/connection.rs: handle_client_finish", "anothertls/src/net/server/connection.rs: handle_client_certificate", "anothertls/src/net/stream.rs: write_alert", "anothertls/src/net/stream.rs: write_record"]}
{"id": "C105", "title": "A server can read the alert by which a client gives up", "statement": "When a client gives up a handshake with an error of its own, connect reports that error and the last thing the client has sent is the alert for it, which a server that follows RFC 8446 can read: it is in plaintext if no ServerHello answered the client's offer, else it is the client's first record under its handshake traffic key, or, if the client had already sent its Finished, its first record under its application traffic key. Nothing else is sent before it than the ClientHello and, in the last case, the client's whole flight.", "quantifier": "every client configuration with a key for its certificate, random bytes, and every history of bytes from the server below 16 MiB", "why_tests_cant": "Which keys and sequence number protect the alert depends on where the handshake stops, and what precedes it on how the server's bytes are distributed over messages, records and reads.", "anchors": ["anothertls/src/net/client/connection.rs: do_handshake_with_error", "anothertls/src/net/client/connection.rs: do_handshake", "anothertls/src/net/client/connection.rs: handle_server_finish", "anothertls/src/net/stream.rs: write_alert", "anothertls/src/net/stream.rs: write_record"]}
{"id": "C106", "title": "Whoever is refused learns the reason", "statement": "When a handshake fails because the peer does not authenticate, accept and connect return the reason: CertificateRequired, CertificateExpired, DecodeError, UnknownCa or AccessDenied for its certificate, BadCertificate for its signature. The alert that is sent is the one for this error.", "quantifier": "every configuration, every peer that follows RFC 8446 except for its certificate or signature, whatever else it sends before its Finished, every distribution of the bytes over records and reads", "why_tests_cant": "The error is recorded at one message and reported at a later one, after the check of a transcript hash over everything before.", "anchors": ["anothertls/src/net/server/connection.rs: handle_client_certificate", "anothertls/src/net/server/connection.rs: handle_client_certificate_verify", "anothertls/src/net/server/connection.rs: handle_client_finish", "anothertls/src/net/client/connection.rs: handle_server_certificate", "anothertls/src/net/client/connection.rs: handle_server_certificate_verify", "anothertls/src/net/client/connection.rs: handle_server_finish"]}
{"id": "C107", "title": "After a record that is not the peer's nothing more is read", "statement": "After the handshake, once tls_read has failed because the record that arrived is not the next one of the peer, no later tls_read returns data, and the peer learns of it.", "quantifier": "every suite and traffic secret, every sequence of records of the peer, every replacement, insertion, removal, repetition and reordering of whole records, every number of reads", "why_tests_cant": "An attacker chooses which of arbitrarily many records to change, and the effect shows in later reads.", "anchors": ["anothertls/src/net/stream.rs: TlsStream::tls_read", "anothertls/src/net/record.rs: RecordPayloadProtection::decrypt", "anothertls/src/net/key_schedule.rs: Key::get_per_record_nonce"]}
{"id": "C108", "title": "Secret numbers are drawn evenly and from random bytes of their own", "statement": "When /dev/urandom is uniform, every private key and every signature nonce is close to equally likely over the range it is used in, and no random bytes serve two purposes: key, hello random, session id and certificate-request context each come from a read of their own.", "quantifier": "every value a private key or nonce can take, every content of the random reads, every configuration and every hello answered", "why_tests_cant": "A test draws a few numbers; a bias or a reuse of bytes shows only over all 256^100 results of a read.", "anchors": ["anothertls/src/rand/urandom.rs: URandomRng::between, next, bytes", "anothertls/src/crypto/ellipticcurve/ecdsa.rs: Ecdsa::sign", "anothertls/src/net/client/connection.rs: send_client_hello", "anothertls/src/net/server/server_hello.rs: ServerHello::from_client_hello"]}
{"id": "C109", "title": "A handshake ends after a bounded amount of data", "statement": "There is an amount of data after which accept and connect return, with a stream or an error, whatever the peer sent.", "quantifier": "every configuration, every content of the random reads and every sequence of reads from the peer, of any length", "why_tests_cant": "A test feeds one flight; that a peer cannot keep the handshake open needs every sequence of records.", "anchors": ["anothertls/src/net/server/connection.rs: ServerHandshake::do_handshake", "anothertls/src/net/server/connection.rs: ServerHandshake::handle_handshake_record", "anothertls/src/net/client/connection.rs: ClientHandshake::do_handshake", "anothertls/src/net/record.rs: Record::from_raw"]}
{"id": "C110", "title": "Certificates and keys do not show in what is sent unencrypted", "statement": "Apart from protected records, what accept and connect send to the peer during the handshake is the same whatever certificate, private key, authority for client certificates, verify function, key log, clock and signature nonces they are configured with; nothing of a certificate can be read from the connection without the keys.", "quantifier": "every pair of configurations with the same name and source of randomness, every content of the random reads and every sequence of reads from the peer", "why_tests_cant": "Whether an unencrypted byte depends on a secret shows only when two runs are compared, for every pair of secrets and every behaviour of the peer.", "anchors": ["anothertls/src/net/server/connection.rs: ServerHandshake::handle_client_hello", "anothertls/src/net/client/connection.rs: ClientHandshake::send_client_hello", "anothertls/src/net/client/connection.rs: ClientHandshake::handle_handshake_record", "anothertls/src/net/stream.rs: TlsStream::write_record", "anothertls/src/net/stream.rs: TlsStream::write_alert"]}
{"id": "C111", "title": "The server only completes a handshake for a ClientHello that RFC 8446 permits and that offers what it selects", "statement": "When accept returns a stream, the client's first message was a well-formed ClientHello with no extension twice, one of the three cipher suites, TLS 1.3 in supported_versions, an X25519 key share, and the supported_groups and signature_algorithms extensions that RFC 8446 requires; the suite in use is one of those offered and the shared secret is that with the offered key.", "quantifier": "every server configuration, every content of the random reads, every sequence of bytes from the client and every way TCP delivers it", "why_tests_cant": "A test can send a few wrong ClientHellos; that no other one leads to a connection concerns all byte sequences.", "anchors": ["anothertls/src/net/client/client_hello.rs: ClientHello::from_raw", "anothertls/src/net/client/client_hello.rs: ClientHello::get_public_key_share", "anothertls/src/net/extensions/client.rs: ClientExtension::from_client_hello", "anothertls/src/net/extensions/key_share.rs: KeyShare::parse", "anothertls/src/net/server/server_hello.rs: ServerHello::from_client_hello", "anothertls/src/net/server/connection.rs: ServerHandshake::handle_client_hello"]}
{"id": "C112", "title": "Reading and writing do not disturb each other", "statement": "On a stream, calls of tls_read and tls_write may be interleaved in any way: every read returns what it would return if nothing were written, every write returns and sends what it would if nothing were read, and any two interleavings of the same reads and writes leave the connection in the same state.", "quantifier": "every state of a stream, every behaviour of the socket and the peer, every list of calls in every order", "why_tests_cant": "The number of interleavings grows without bound; the claim compares all of them.", "anchors": ["anothertls/src/net/stream.rs: TlsStream::tls_read", "anothertls/src/net/stream.rs: TlsStream::tls_write", "anothertls/src/net/record.rs: RecordPayloadProtection::encrypt", "anothertls/src/net/record.rs: RecordPayloadProtection::decrypt"]}
{"id": "C113", "title": "AES-GCM is SP 800-38D for initialisation vectors of every length", "statement": "Gcm::encrypt and Gcm::decrypt with a 128-, 192- or 256-bit key and an initialisation vector of any length from one byte on compute GCM-AE and GCM-AD of NIST SP 800-38D, and never panic.", "quantifier": "every key of a valid size, every initialisation vector, every message and additional data", "why_tests_cant": "There are 2^(8n) initialisation vectors; those that matter have to be computed from the key, no test vector has one.", "anchors": ["anothertls/src/crypto/aes/gcm.rs: Gcm::gcm", "anothertls/src/crypto/aes/gcm.rs: Gcm::encrypt", "anothertls/src/crypto/aes/gcm.rs: Gcm::decrypt"]}
{"id": "C114", "title": "A client certificate is only accepted within the limits written into it", "statement": "A server with a client CA accepts a client's certificate only if the issuer named in it is the subject of the CA, it has no critical extension outside those RFC 5280 requires to be recognised, a key usage in it includes digitalSignature, and an extended key usage in it includes the authentication of clients (or any purpose).", "quantifier": "every CA certificate, every client certificate with any names and extensions, every Certificate message", "why_tests_cant": "What a CA writes into certificates for other purposes is unbounded; a test shows one certificate.", "anchors": ["anothertls/src/net/handshake/certificate.rs: Certificate::has_signed", "anothertls/src/net/handshake/certificate.rs: Certificate::from_hello", "anothertls/src/utils/x509.rs: X509Builder", "anothertls/src/net/server/connection.rs: ServerConnection::handle_client_certificate"]}
{"id": "C115", "title": "A client certificate is checked with the algorithm it names", "statement": "A server with a client CA takes a client's certificate in its validity period exactly if it carries a signature of the CA's key that is valid for the signature algorithm named in the certificate (ECDSA with SHA-256 or with SHA-384).", "quantifier": "every CA key, every well-formed certificate, every pair of signature numbers, both algorithms", "why_tests_cant": "Which signatures are valid is a question about every pair of numbers; a test tries a few certificates, all made with SHA-256.", "anchors": ["anothertls/src/net/handshake/certificate.rs: Certificate::has_signed", "anothertls/src/utils/x509.rs: Algorithms", "anothertls/src/crypto/ellipticcurve/ecdsa.rs: Ecdsa::verify"]}
{"id": "C116", "title": "A recorded handshake cannot be replayed to the server", "statement": "If a server has completed a handshake and a later handshake of a server receives exactly the bytes that the first one received, in whatever pieces, then the later one completes only if the server sends the same ServerHello and has the same shared secret and transcript; with another random value it does not complete. The only exceptions are a hash collision among the named inputs, or a recorded record that is valid under the client handshake keys of both sessions.", "quantifier": "every pair of handshakes, every recording, every segmentation, every configuration that asks for client certificates in both or in neither", "why_tests_cant": "A test replays a few recordings; that none is accepted is a statement about all of them and about all random values.", "anchors": ["anothertls/src/net/server/connection.rs: ServerConnection", "anothertls/src/net/server/server_hello.rs: ServerHello::from_client_hello", "anothertls/src/net/record.rs: RecordPayloadProtection", "anothertls/src/net/key_schedule.rs: KeySchedule"]}
{"id": "C117", "title": "No key is used for more records than RFC 8446 allows", "statement": "However much an application writes with tls_write, no more data records go out under one key than RFC 8446 section 5.5 allows (2^24.5 full-size records for AES-GCM; for ChaCha20-Poly1305 the number of sequence numbers): before that the key is updated or the write refused.", "quantifier": "every suite, every sequence of reads and writes of every length", "why_tests_cant": "A test would have to write hundreds of gigabytes on one connection.", "anchors": ["anothertls/src/net/stream.rs: TlsStream::tls_write", "anothertls/src/net/record.rs: RecordPayloadProtection::encrypt", "anothertls/src/net/key_schedule.rs: Key::get_per_record_nonce"]}
{"id": "C118", "title": "The server refuses the change_cipher_spec records that RFC 8446 forbids", "statement": "A server that gets a change_cipher_spec record before the ClientHello, or a protected one, or one with another value than the single byte 1, ends the handshake with unexpected_message (RFC 8446, section 5).", "quantifier": "every configuration, every content of the record, whatever follows it, every grouping of whole records into reads", "why_tests_cant": "A test sends a few such records at one place each; the claim is about every value and every handshake.", "anchors": ["anothertls/src/net/server/connection.rs: ServerHandshake::handle_handshake_record", "anothertls/src/net/server/connection.rs: ServerHandshake::handle_handshake_encrypted_record"]}
{"id": "C119", "title": "The client refuses the change_cipher_spec records that RFC 8446 forbids", "statement": "A client that gets a change_cipher_spec record before the ServerHello, or a protected one, or one with another value than the single byte 1, ends the handshake with unexpected_message (RFC 8446, section 5).", "quantifier": "every configuration, every content of the record, whatever records follow it, every way the bytes are cut into reads", "why_tests_cant": "A test sends a few such records at one place each; the claim is about every value, every segmentation and every handshake.", "anchors": ["anothertls/src/net/client/connection.rs: ClientHandshake::handle_handshake_record", "anothertls/src/net/client/connection.rs: ClientHandshake::handle_handshake_encrypted_record"]}
{"id": "C120", "title": "A signature that authenticates one end in a handshake does not authenticate it in another", "statement": "When a client connects, the CertificateVerify message of the server was made for this connection: the same message with the same key is accepted in two handshakes only if everything sent before it, beginning with the client's random value, is the same, up to hash collisions and signatures that fit two digests. Likewise for the CertificateVerify message of a client that a server accepts.", "quantifier": "every two completed handshakes: all configurations, random values, inputs and segmentations", "why_tests_cant": "A test replays one signature once; the claim is about every pair of handshakes.", "anchors": ["anothertls/src/net/client/connection.rs: ClientHandshake::handle_server_certificate_verify", "anothertls/src/net/server/connection.rs: ServerHandshake::handle_client_certificate_verify", "anothertls/src/net/handshake/certificate.rs: Certificate::is_certificate_valid"]}
{"id": "C121", "title": "Once keys are in use, data is only taken from records of type application_data", "statement": "When tls_read returns data on a stream with keys, the record it came from has the type application_data (23) in its header, as RFC 8446 5.2 requires of every protected record.", "quantifier": "every suite, traffic secret, sequence number, stream state and input", "why_tests_cant": "A test sends records with the right type; the claim is about every record that could arrive.", "anchors": ["anothertls/src/net/stream.rs: TlsStream::tls_read", "anothertls/src/net/record.rs: RecordPayloadProtection::decrypt, Record::from_raw, RecordType::new"]}
{"id": "C122", "title": "Records longer than RFC 8446 allows are refused", "statement": "A connection in which a protected record of more than 2^14 + 256 bytes arrives is given up: the client does not complete the handshake with a server that sends one, and tls_read does not return data from one.", "quantifier": "every server's flight, suite, padding and segmentation; every stream state and input", "why_tests_cant": "The length field goes up to 65535 and records are cut into reads in many ways; a test tries a few.", "anchors": ["anothertls/src/net/client/connection.rs: ClientConnection::connect, do_handshake_with_error", "anothertls/src/net/record.rs: Record::from_raw", "anothertls/src/net/stream.rs: TlsStream::tls_read"]}
{"id": "C123", "title": "The client refuses EncryptedExtensions that RFC 8446 forbids", "statement": "When connect hands out a stream, the server's EncryptedExtensions message was a well-formed list of extensions, none of them twice and none of them forbidden there (RFC 8446 4.2, 4.3.1).", "quantifier": "every configuration, server, EncryptedExtensions message and segmentation", "why_tests_cant": "Tests talk to servers whose EncryptedExtensions are right; the claim is about every content of the message.", "anchors": ["anothertls/src/net/client/connection.rs: ClientHandshake::handle_encrypted_extension, ClientConnection::connect"]}
{"id": "C124", "title": "The client refuses a second certificate request", "statement": "When connect hands out a stream, the server sent at most one CertificateRequest message (RFC 8446 2, 4 and 4.3.2: a message out of order ends the handshake).", "quantifier": "every configuration, server, number and contents of certificate requests, and segmentation", "why_tests_cant": "Tests talk to servers that ask once or not at all; the claim is about every sequence of messages.", "anchors": ["anothertls/src/net/client/connection.rs: ClientHandshake::handle_handshake_encrypted_record, ClientHandshake::handle_certificate_request, ClientConnection::connect"]}
{"id": "C125", "title": "The client signs with an algorithm the server asked for", "statement": "When connect hands out a stream and the client sent a CertificateVerify message, the algorithm it names is one of those in the signature_algorithms extension of the server's CertificateRequest (RFC 8446 4.4.3).", "quantifier": "every configuration, server, list of signature algorithms and segmentation", "why_tests_cant": "Tests talk to servers that ask for the one algorithm the library has; the claim is about every list.", "anchors": ["anothertls/src/net/client/connection.rs: ClientHandshake::handle_certificate_request, ClientConnection::connect", "anothertls/src/net/extensions/certificate_request.rs: CertificateRequestExtensions::from_request"]}
{"id": "C126", "title": "A client's certificate is only taken as an answer to the server's own request", "statement": "When accept returns a stream for a server with a client CA, it sent exactly one CertificateRequest, and the client answered with a Certificate message with the context of that request and a CertificateVerify message with an algorithm it named. A server without a client CA does not ask and takes no such messages (RFC 8446 4.3.2, 4.4.2, 4.4.3).", "quantifier": "every configuration, random source, client and segmentation", "why_tests_cant": "Tests use a client that answers rightly; the claim is about every sequence of messages a client can send.", "anchors": ["anothertls/src/net/server/connection.rs: ServerHandshake::handle_client_hello, ServerHandshake::handle_client_certificate, ServerHandshake::handle_client_certificate_verify"]}
{"id": "C127", "title": "The server refuses a Finished message that does not end its record", "statement": "When accept returns a stream, nothing followed the client's Finished message in its record, since the keys change there (RFC 8446 5.1).", "quantifier": "every configuration, random source, client, bytes after the message and segmentation", "why_tests_cant": "Tests use a client that ends the record there; the claim is about everything a client can put behind it.", "anchors": ["anothertls/src/net/server/connection.rs: ServerHandshake::handle_client_finish, ServerConnection::accept", "anothertls/src/net/handshake/mod.rs: Handshake::from_raw"]}
