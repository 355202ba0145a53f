# Formal model of otsmr/AnotherTLS in Lean 4

Source: `/repo` (Rust, crate `anothertls`). The model lives in `lean/Verif`:

* `Verif/Basic.lean` – bytes, `Res` (Rust `Result` plus an explicit `panic` outcome), small list helpers.
* `Verif/Model/*` – the model, one definition per Rust function, every definition citing file and lines.
* `Verif/Spec/*` – independent specifications transcribed from the standards (FIPS 180-4, FIPS 197,
  SP 800-38D, RFC 2104, 5869, 5915, 7468, 7748, 8439, 8446, X.690, RFC 5280, civil calendar, textbook ECDSA ...). They import nothing from `Model`.
* `Verif/Proof/*` – helper lemmas.
* `Verif/Props/*` – the property theorems `Cxx_...`, each with `example`s or `Cxx_example` theorems showing that its hypotheses are met.

How to read a property: `Cxx_statement : Prop` is the full English property; where the code violates it, `Cxx_false : ¬ Cxx_statement` is proved and
`Cxx_..._partial` proves it under the exact guard that is missing. Where there is no `_statement`, the theorem itself is the full property.

## Trusted base

* Lean 4.33's kernel and the axioms `propext`, `Classical.choice`, `Quot.sound`; no other axiom, no `sorry`, `native_decide`, `bv_decide`.
  The section "Axioms" at the end lists them for each theorem of MANIFEST.json, as printed by `#print axioms`.
* The reading of the Rust text: nothing here is extracted from or run against the Rust code.
* The transcription of the standards in `Verif/Spec`. Several are checked against published test vectors by `example`s evaluated in the kernel.

## Modelling conventions

* Bytes are `BitVec 8`, byte strings are lists. `u32/u64/u128` are `BitVec` where wrap-around matters; `usize` is `Nat`
  (lengths of buffers that exist in memory are below 2^63; where a `usize`/`u16`/`u8` computation can overflow on
  attacker-controlled values it is modelled explicitly).
* `&mut self` methods return the new value; the handshake methods run in the state monad `Step σ ε α = σ → Res ε α × σ`, so that the state (what was
  written to the socket, the transcript, the log) is visible after an error too. A loop is a fold or structural recursion; where the Rust loop has no
  static bound the model takes fuel and the theorems quantify over all fuel, or prove that the fuel supplied suffices.
* Panics (`unwrap` on `None`, slice out of range, `todo!`, arithmetic overflow with overflow checks on) are the outcome `Res.panic`.
  Overflow is modelled as in a build with overflow checks (debug profile); where the release profile differs in an interesting
  way (wrap-around) this is said in the comment.
* `ibig::IBig` is `Int` (or `Nat` where the code only produces non-negative values). `f32` appears only as
  `(len as f32 / B).ceil()`; it is modelled exactly by rounding to 24 significant bits.
* The socket is a list of reads (what each `read` returns) and the bytes written; writes may fail or be short. The clock is a parameter; random
  generators are a stream of the bytes read from `/dev/urandom`; ECDSA nonces are a list of integers; a file is its text.

## What is modelled

| source (anothertls/src) | model |
|----|----|
| utils/base64.rs, utils/pem.rs | Model/Base64.lean, Model/Files.lean |
| utils/bytes.rs | Model/Bytes.lean |
| utils/der.rs, crypto/ellipticcurve/signature.rs | Model/Der.lean |
| utils/x509.rs | Model/X509.lean, Model/Time.lean, Model/Utf8.lean |
| utils/keylog.rs | Model/KeyLog.lean (the text appended; opening the file is not) |
| hash/* | Model/Sha.lean, Model/Kdf.lean |
| crypto/aes/*, crypto/chacha20/*, crypto/ciphersuite.rs | Model/Aes.lean, Gcm.lean, ChaCha.lean, Cipher.lean |
| crypto/ellipticcurve/* | Model/Ec.lean, X25519.lean, KeyExchange.lean |
| rand/* | Model/Rand.lean |
| net/record.rs, net/stream.rs, net/alert.rs | Model/Record.lean, Stream.lean, Alert.lean |
| net/key_schedule.rs | Model/KeySchedule.lean |
| net/handshake/* | Model/Handshake.lean, Certificate.lean, Files.lean |
| net/extensions/*, client_hello.rs, server_hello.rs | Model/Extensions.lean, Hello.lean, ServerHello.lean |
| net/server/connection.rs, net/client/connection.rs | Model/Server.lean, Client.lean (monad: Step.lean) |
| net/server/config.rs, net/client/config.rs | Model/Config.lean, Files.lean |

Every function outside `#[cfg(test)]` modules is modelled, except: `utils/log.rs` (printing), the `fmt` methods, `KeySchedule::_get_early_keys` (dead code),
`ServerConnection::accept`'s call of `TcpListener::accept`, and trivial constructors, which are structure literals in the model.

## Not modelled

Socket errors other than "read failed", "peer closed", "write failed" and "short write"; opening files (a file is its text or unreadable); the internals of
`log` and `ibig`; timing and constant-time behaviour; thread interleavings (the code is single threaded per connection); process-level consequences of a
panic; memory exhaustion and the depth of the stack. Computational security (unforgeability, indistinguishability) cannot be expressed as a theorem of this kind and is never claimed:
C42 to C45 say which checks were passed, not that an attacker cannot pass them.

## Per-property plan

| id | model | proof |
|----|-------|-------|
| C01 | `base64::encode/decode` over lists | induction on 3-byte groups, 6-bit regrouping identities |
| C02 | same | false: witnesses (`"AA!A"` decodes, `"{AAA"` panics, inner `=`); partial: length rule, and acceptance is right on alphabet text |
| C03 | `to_hex/from_hex` | induction, per-byte table |
| C04 | `to_ibig_*`, `ibig_to_vec`, `ibig_to_32bytes` | positional-value induction; big-endian 32-byte conversion false below 2^248 (witness), partial otherwise |
| C05 | PEM line machine | induction over content lines, C01 |
| C06/C07 | streaming SHA | loop invariant: state = FIPS fold over complete blocks, buffer = rest; padding equality |
| C08 | same | algebra of `update`; ops-list induction |
| C09 | HMAC | unfold; SHA-384 keys of 65..128 bytes violate RFC 2104 (difference shown structurally), partial otherwise |
| C10 | HKDF | induction on counter |
| C11 | AES | byte tables by `decide`, linearity for MixColumns, round-by-round cancellation; FIPS spec with GF(2^8) arithmetic |
| C12 | GCM | bit-reversal simulation of the field product; block induction |
| C13 | ChaCha20 | list induction; multiples of 64 violate (witness + general statement), partial otherwise |
| C14 | Poly1305 | Horner invariant modulo 2^130-5 |
| C15/C16 | Cipher trait objects | from the structure of encrypt/decrypt |
| C17/C18 | record framing | direct; panic window characterised exactly, negation by witness |
| C19 | record protection | two-endpoint simulation invariant on sequence numbers |
| C20 | per-record nonce | XOR injectivity, 64-bit counter |
| C21..C24 | `TlsStream` | operation-sequence induction, negations by witness |
| C25/C26 | key schedule | unfolding to RFC formulas |
| C27 | `inv`, `rem_euclid` | extended Euclid invariant over `Int` |
| C28..C30 | P-256, ECDSA | refinement of Jacobian formulas to Mathlib's Weierstrass group; primality of p and n by Lucas certificates |
| C31 | DER signature | round trip when r,s >= 2^248; negation otherwise |
| C32 | X25519 limbs | refinement to `ZMod (2^255-19)` with limb bounds; RFC 7748 ladder |
| C33 | ECDHE path | ladder = x-only scalar multiplication in Mathlib's group; negation for leading zero byte |
| C34..C37 | codecs | round trips by symbolic execution; termination by progress measure; panics exhibited |
| C38..C41 | `ServerHello::from_client_hello` | induction over offered lists; negations by witness |
| C42..C45 | handshake machines | invariant over all record sequences with history ghosts |
| C46,C47 | same | negations by witness; partial: record-aligned segmentations for the server, for the client also reads that cut records (Spec/Pieces.lean), with the cuts it does not handle characterised |
| C48,C49 | alerts | finite tables; run induction |
| C50 | X.509 parser + has_signed | negation by witness (appended unsigned elements), partial statement |
| C51,C52 | time | against a recursive civil-calendar spec; off by one day in leap years after February |
| C53 | X.509 parser | fuel sufficiency by progress, panic witnesses |
| C54 | CertificateVerify content | injectivity |
| C55 | RNGs | direct, negation for `SimpleRng::bytes` |
| C56 | builders | case analysis |
| C57 | signature_algorithms | negation; partial |
| C58 | key log | string-level round trip |
| C59 | CCS | simulation |
| C60 | both machines composed | symbolic run, using C17, C19, C25, C26, C29, C33, C35, C36 |
| C61..C63 | `RecordPayloadProtection::decrypt` | AEAD inversion lemma (decrypt succeeds iff the text is the encryption of something), padding strip by induction from the right; panic condition exact |
| C64 | ClientHello parser | symbolic execution over every RFC-encoded hello; negation for an unknown group |
| C65 | ECDHE | ladder value at u = 0 for every key; honest shares have order prime, so never zero |
| C66 | `tls_read` | from C62 |
| C67 | DER signature reader | inverse of the X.690 encoder for all r, s |
| C68 | X.509 parser + `has_signed` | symbolic execution over the RFC 5280 encoder; hash offset false below 256 bytes |
| C69, C70 | CertificateVerify, Certificate messages | ECDSA group law (C29, C30) composed with C31, C67; codecs |
| C71..C74 | both machines | the invariant of C42/C45 extended by what was written and which keys are installed |
| C75, C76 | both machines | forward symbolic run for every conforming peer (RFC 8446 messages, coalesced or not), every grouping into reads, then determinism |
| C77 | both machines, streams | C75, C76 and the operation-sequence simulation of C19/C23 on the installed keys |
| C78 | key log | the invariant of C42/C45 extended by the text logged; C58 for its format; secrets from the RFC key schedule spec |
| C79, C80 | `from_pem`, builders | C05 and offsets in the RFC 5915 encoding; title invariant over the lines for CRLF |
| C81 | server machine against a peer described by RFC 8446 alone (Spec/Peer.lean) | reduction to C75: the ClientHello of the RFC is the one the server parses, its own messages are those of a server of the RFC |
| C82 | client machine against a peer described by RFC 8446 alone (Spec/Peer.lean) | reduction to C76: the RFC messages, signatures and keys are those the client accepts |
| C83 | client machine, certificate | C45 for what is established; negation by a run of C82 with an arbitrary configured name |
| C84 | loops and recursions of the handshakes and parsers, written without a bound | termination measure: bytes left; the bounded model equals the unbounded loop unrolled |
| C85 | `tls_read`, `tls_write` on the stream of a finished handshake | invariant over calls: read keys fixed, sequence number = number of opened records; assumption on the cipher explicit |
| C86 | `tls_read` against the records of RFC 8446 4.6, 6.1 | induction over the peer's sendings; negation by a KeyUpdate run |
| C87 | ServerHello parser, client machine | the bytes behind every accepted field; negation by a run with another session id |
| C88 | both machines | HMAC and the transcript hash are injective without collisions; the messages of the transcript are self-delimiting |
| C89 | tls_write, tls_read, both machines | induction over the calls: reading leaves the write side alone, one write makes one record of the RFC; C42, C45 for the keys |
| C90 | client machine, X.509 and time | C45 and the parser's result for well-formed certificates; a complete handshake with a changed certificate |
| C91 | stream, record layer, both machines | case analysis of tls_read with C15, C62, C63 for the exact set of crashing reads; evaluation of both machines on a five-byte read |
| C92 | X.509 parser, both machines | the parser proof of C68 with the curve as a parameter; what `connect` and `accept` require by C45 and C43 |
| C93 | DER and signatures | evaluation of the parser on a header and two elements with arbitrary tags; the tags by cases over all 256 |
| C94 | example servers over the server machine | induction over the connections; C91 for `tls_read`, C89 for the keys, C81 for the clients of RFC 8446 |
| C95 | the same with the custom function | C43; the fields of certificates by C68; a run with a changed certificate by C50 for the negation |
| C96 | `tls_write` over a socket with outcomes per write | induction over the calls, one record per write by C89 |
| C97 | `fetch` (the example clients) against `serveOne` (the example servers) | C60's runs and C77's reads and writes, put together |
| C98 | the configurations of the four example programs on the repository's files | C79 and C80 on the files, C52 on the validity, then C97 |
| C99 | `append_to_file` as two writes; the writers of one file in any order (`Spec/Interleave.lean`) | induction over the order of the writes, with C58 for the lines |
| C100 | `tls_read`, `write_alert` on a protected stream under a network that cannot forge encryptions (`Authentic` in Spec/Channel.lean) | induction over the calls with C62; negation by witness |
| C101 | `ServerHello::from_raw`, `KeyShare::parse`, `handle_server_hello`, `handle_client_hello`, `do_handshake_with_error`; the HelloRetryRequest of RFC 8446 in Spec/Retry.lean | induction over the extensions of the message, then the run up to the first record |
| C102 | `Handshake::from_raw`, the handlers of both machines, `do_handshake_with_error` | the run up to the first record with the exact result of the parser (C34); the handlers of protected records in every state |
| C103 | `handle_handshake_encrypted_record` of both machines | C75 and C76; the number of records of a completed handshake (C42) against the number of records sent |
| C104 | `do_handshake_with_error`, `write_alert`, the server's states after its flight | forward execution from the hello (C75) into the failing state; invariant on the bytes held back in the write buffer |
| C105 | `do_handshake_with_error`, `write_alert`, all states of the client | invariant over messages, records and reads: until its Finished the client has its handshake keys with sequence number 0 and an empty write buffer |
| C106 | `handle_client_certificate(_verify)`, `handle_client_finish`, `handle_server_certificate(_verify)`, `handle_server_finish` | forward simulation of a peer that fails to authenticate, up to its Finished, over all groupings of messages into records |
| C107 | `tls_read`, `RecordPayloadProtection::decrypt` | induction over the reads; what the library's AEAD opens is an encryption of the RFC's suite; a replaced record as counterexample |
| C108 | `URandomRng::{between,next,bytes}`, who draws in which order | counting the results of a read with a given value, fibre by fibre over the bytes that choose the size; residues modulo the order of P-256 as counterexample |
| C109 | `do_handshake` of both sides, the dispatch on record types and states | a rank that every non-change_cipher_spec record lowers, by induction on the reads; floods of change_cipher_spec records as counterexample |
| C110 | `accept`, `connect` and all handlers, run twice with different configurations | two runs in lockstep until keys are installed, afterwards each run alone under the invariant that only sealed records are appended |
| C111 | `accept`, `ClientHello::from_raw`, the extension and key share parsers | inversion of the parsers down to the bytes, joined to C42; the negation by the client of C81, which sends three extensions |
| C112 | `tls_read`, `tls_write`, `encrypt`, `decrypt` | one read and one write commute; induction over the list of calls |
| C113 | `Gcm::gcm` with IVs of other lengths | the loop of C12 with the counter shifted by the last 32 bits of the first block; the negation by two IVs computed backwards from the block wanted |
| C114 | `has_signed`, `from_hello` and the parser's treatment of `[3]` | the specification of names, critical extensions, key usage and extended key usage is stated apart (Spec/Limits.lean); acceptance from C68 and C70 for every such certificate; the negation by a certificate made for a server by another issuer's name |
| C115 | `has_signed` | the equivalence from C114; the negation by two signatures of the repository's key on a certificate naming SHA-384, whose validity the kernel evaluates through C30, C06 and C07 |
| C116 | `accept` twice on the same bytes | both runs by C42; the two readings of the bytes go record by record (induction over both), so one record carries both Finished messages; injectivity of the AEADs (`gcm_inverse`, `poly_inverse`), then of Finished and the key schedule as in C88 |
| C117 | `tls_write`, `encrypt`, `get_per_record_nonce` over any calls | induction over the calls with the sequence number as measure; the negation from C96 with 23726567 writes, by induction and not by running them |
| C118 | `handle_handshake_record`, `handle_handshake_encrypted_record` | first record: the first read evaluated symbolically; protected: the state after the ClientHello as in C104; the negation from C75 with one more record in the example handshake |
| C119 | the client's `handle_handshake_record`, `handle_handshake_encrypted_record` | the records handled one by one (C46) end with the error; what is written then is C105; the negation from C76 with one more record in the example handshake |
| C120 | `connect` and `accept` with the certificate messages | from C45 and C42: the signature is a function of the message; contents of RFC 8446 4.4.3 are injective in the transcript hash; the client's random value is at a fixed place of the transcript |
| C121 | `tls_read` | a record opens whatever its header says, as long as it was sealed with that header; the converse from C62 |
| C122 | `connect`, `tls_read` | from C76: padding the first protected record keeps the server conforming; for `tls_read` from C121 and the size of its buffer |
| C123 | `connect` | from C82, whose servers have arbitrary EncryptedExtensions, with a signature over them; the part that holds from C45 |
| C124 | `connect` | servers as in C82 but with any list of certificate requests meet the conditions of C76; the part that holds from C45 |
| C125 | `connect` | from C82 with a server of C124 that asks for arbitrary algorithms; the part that holds from C45 |
| C126 | `accept` | from C42 and C43, whose runs have the flight sent and the messages taken |
| C127 | `accept` | from C75, whose clients may append bytes to the Finished message; the part that holds from C42 |

## Findings (properties the code violates)

Each is a theorem about the model; the theorem names are in MANIFEST.json. "For all" means the failure is proved for every input of that kind.

Cryptography and encodings

* C02: `base64::decode` accepts characters outside the alphabet below `z`, accepts `=` in the middle, and panics on characters above `z`.
* C04, C31, C69: `ibig_to_32bytes` left-aligns big-endian numbers below 2^248. So about one ECDSA signature in 128 is encoded with a wrong `r` or `s`, and the
  peer rejects the handshake.
* C09, C10: HMAC-SHA-384 hashes keys of 65 to 128 bytes first (block size 64 instead of 128).
* C13, C21, C61: ChaCha20 leaves the last 64 bytes of the data in plaintext when the length is a positive multiple of 64. `tls_write` of 63, 127, ... bytes
  sends its last 63 bytes in clear. Padded records of those lengths from a correct peer are opened wrongly.
* C14: block counts computed in `f32` are wrong beyond 2^24 bytes.
* C33: a key share that starts with a zero byte is read as a shorter number, so the two ends get different secrets (about one handshake in 128).
* C65: an all-zero X25519 result is not refused.
* C27 note: `inv` is wrong for negative arguments (not reached by the callers). Hashes longer than 32 bytes are not truncated for ECDSA (not reached).

Records and streams

* C18: a buffer 1 to 3 bytes short of the announced record panics the parser.
* C19, C22: payloads above 65518 bytes wrap the 16-bit length. `tls_write` does not split large buffers.
* C23: of several records that arrive in one read, `tls_read` returns the first and loses the rest; a record longer than 4096 bytes is never readable. `C23_exact`: what was written is read back if and only if every read of the socket holds exactly one record.
* C24: alerts overtake records still in the write buffer. An unflushed flight is lost on an error in the same read.
* C86: a NewSessionTicket, a KeyUpdate or a close_notify makes `tls_read` return `UnexpectedMessage`; after a KeyUpdate no data is received any more. The end of the
  peer's data cannot be told from an error.
* C48: `bad_record_mac` is sent as code 0 (`close_notify`), and the codes of `decode_error` (50) and `decrypt_error` (51) are swapped, both sent and received.
* C55: `URandomRng::bytes(n)` panics for n > 100; `SimpleRng::bytes` returns no bytes or does not return.
* C63: a protected record with a body below 16 bytes panics.

Certificates, time, files

* C50: bytes appended after the signed part (inside the outer SEQUENCE) replace `notAfter` and the subject of a certificate that still verifies.
* C51, C52: from 1 March on in leap years the computed time is one day early; years before 1970 panic.
* C53: truncated or odd certificates panic; NULL algorithm parameters (as RSA certificates have) panic.
* C68: for a to-be-signed part below 256 bytes the wrong bytes are hashed.
* C79: a private key for another curve is silently read as a P-256 key (P-384: for all keys).
* C80: of a chain file the last certificate is presented instead of the first (for all files); files with CRLF line ends cannot be read (for all files).
* Notes: object identifiers with equal numeric value of their bytes collide in the table; a client certificate without a key panics in `build`.

Hello messages and handshake

* C34, C37: truncated handshake messages and hellos panic the parser.
* C35: server names above 65459 bytes wrap the extension length.
* C39: a hello without `supported_versions` (TLS 1.2) is answered.
* C41, C64: the server only uses the first key share: a P-256 share first panics it, another group first fails the key exchange; an unknown group is refused.
* C57: the last signature algorithm of every list is lost. (The list is then not used: `signature_algorithms` is unknown to `ExtensionType::new`.)
* C46: a handshake record cut by a TCP read breaks the server's handshake: decode error, or panic when at most 3 bytes are missing (for all conforming clients).
* C46: the client keeps the beginning of a record that a read cuts, but panics when at most 3 bytes are missing (`C46_client_cut`), and handles a record a second time, with the next sequence number, when the read with its end also has the beginning of the next record (`C46_client_replayed`): the records stay in the buffer that the rest is appended to.
  The client's defragmentation processes records again that it has already handled.
* C47: application data in the read that contains the client's Finished is dropped, for all conforming clients, and later reads fail.
  A NewSessionTicket in the read with the server's Finished is dropped on the client, which desynchronises its read sequence number.
* C73: a client without a certificate answers a CertificateRequest with a malformed Certificate message.
* C87: the client accepts a ServerHello with any session id, compression method and further extensions.
* C89: tls_write does not split its argument: more than 2^14 + 239 bytes make a record that no peer may accept.
* C91: one read of the five bytes 16 03 03 00 03 crashes every server and every client; after the handshake an attacker without keys crashes `tls_read` the same way or with a record body below 16 bytes, and the peer with data longer than the caller's buffer.
* C94: one connection with five bytes, or with a request of less than four bytes or of bytes that are not UTF-8, ends the process of the example servers.
* C95: a client with any certificate of the CA appends a date and the common name otsmr to it and is served as otsmr.
* C106: a server that refuses a client's CertificateVerify message does not add it to the transcript
  hash (server/connection.rs:386-438), although it waits for the Finished. The Finished of a client that
  follows RFC 8446 covers the message, so its check fails and the server reports DecryptError instead of
  BadCertificate, and with the handshake keys.
* C107: a failed decryption uses up a sequence number and leaves the stream usable (record.rs:198-241,
  stream.rs:97-131). When an attacker replaces a record, its read fails and the next one returns the data
  after the gap. RFC 8446 section 5.2 demands that the connection ends with a bad_record_mac alert; tls_read
  sends nothing and returns DecryptError.
* C108: a signature nonce is any number from 2^8 to 2^256-1 instead of an even draw from [1, n-1]
  (ecdsa.rs:45, urandom.rs): residues below 2^256 - n are twice as likely as the others.
* C109: any number of change_cipher_spec records is read before the handshake is decided
  (net/server/connection.rs, net/client/connection.rs, do_handshake), so a peer can keep `accept` and `connect` busy forever.
* C110: with ChaCha20-Poly1305 up to 63 bytes at the end of a Certificate message leave in clear
  (crypto/chacha20/cipher.rs, the last block of a multiple of 64 bytes; see C13).
* C111: a ClientHello without supported_groups and signature_algorithms is accepted (RFC 8446 section 9.2: abort with
  missing_extension); both types are commented out in net/extensions/shared.rs.
* C113: crypto/aes/gcm.rs:92-93 adds the counter to the whole block when the IV is not 96 bits long; SP 800-38D increments
  the last 32 bits only. Encryption under some IVs gives a wrong ciphertext, under others `Yi + counter` overflows and panics.
* C114: net/handshake/certificate.rs:173-191 checks only the signature and utils/x509.rs:489 skips the extensions: a certificate the
  CA's key signed for another purpose (a server's, one for encryption only, one with unknown critical extensions) authenticates a client.
* C115: net/handshake/certificate.rs:193 hashes with SHA-256 whatever the certificate's signatureAlgorithm says: certificates that a CA
  signed with SHA-384 are refused, although utils/x509.rs knows the algorithm.
* C117: nothing counts the records under a key and there is no KeyUpdate: an AES-GCM key is used beyond the 2^24.5 records of RFC 8446
  section 5.5, until the sequence number overflows after 2^64 - 1 records (a panic).
* C118, C119: the value of a change_cipher_spec record is not looked at; RFC 8446 section 5 requires unexpected_message for any value but 1.
* C121: `tls_read` takes application data from records with any known type in the header; only their protection is checked.
* C122: the client accepts handshake records of up to 65535 bytes; RFC 8446 requires `record_overflow` above 16640.
* C123: the client ignores the contents of EncryptedExtensions; malformed and forbidden ones are accepted.
* C124: the client accepts any number of certificate requests and answers the last one.
* C125: the client signs with ecdsa_secp256r1_sha256 whatever algorithms the server asked for.
* C127: the server ignores bytes that follow the client's Finished message in its record.
* C104: after its Finished a server sends the alert for a wrong client Finished under the handshake key, which RFC 8446's client no longer uses; and an alert overtakes a flight still in the write buffer, so a client may get an alert under a key it cannot compute.
* C103: the server takes one handshake message from each record; with client authentication a client that puts CertificateVerify and Finished into one record is never served.
* C102: a handshake message split over two records (which RFC 8446 allows, and requires for messages above 2^14 bytes) crashes client and server unless less than four bytes are in the first record.
* C101: a HelloRetryRequest for secp256r1, which the client offers as a group without sending a share, crashes the client: the parser of the key share slices past the two bytes of selected_group.
* C100: tls_read reports the peer's close_notify with the same error as a session ticket, and the library never sends close_notify by itself, so with the library on both ends every end of data looks like a cut connection.
* C99: the key log writes a line and its end separately; connections that log at the same time can join their lines.
* C98: the shipped server certificate, valid until 2024-03-08 10:18:12, is rejected from 2024-03-07 10:18:13 on.
* C97: the example client sends its request right after its Finished; when TCP joins them, the example server drops the request and both ends wait.
* C96: after a write that failed (also without any byte sent) the next write succeeds with a record no peer can read.
* C92: a client CA with a key on another curve than P-256 is taken from its file without complaint, and the server then panics on the first certificate a client shows.
* C93: `from_der` reads elements of any known type as the numbers of a signature and ignores the length of the SEQUENCE, so one signature has many accepted encodings.
* C43, C90: appending a date to an expired certificate, outside the signed part, makes both ends accept it in a complete handshake (with C50's defect of the parser).
* C83: the client compares neither the configured server name nor an issuer with the certificate: whatever name is configured, it connects to any server with a valid P-256 certificate and its key.
* C60, C77: with a signing nonce that gives a number below 2^248 (about 1 in 128 signatures) client and server of the library do not complete the handshake.
* Notes: the client validates no chain (any parseable, unexpired certificate whose key signs is accepted); it does not check the session id echo, the version
  or that the suite was offered. Bytes after a handshake message in the same record are tolerated and enter the transcript. Plaintext alerts end a
  handshake at any time; an alert record with less than 2 bytes panics. A repeated CertificateRequest is accepted. A short write of the ClientHello is
  taken for success.

## Testing the theorems

`seeded/LOG.jsonl` lists 448 wrong programs: edits of the model as realistic bugs would make them, rebuilt in a scratch copy, with the theorems that failed.

* 107 edits made a property theorem (`Cnn_...`) fail itself.
* 310 edits only made a lemma of `Verif/Proof` or an example fail. The build stops there, so the property theorems that import it were not checked against the
  edit. Such an entry shows that the proof as written does not go through for the wrong program. It does not show that no other proof of the property theorem
  exists, so it is weaker evidence that the statement excludes the bug.
* 31 edits made nothing fail. For 21 the theorem named under "tightened" was strengthened or added in response. For 10 nothing was changed, and the entry says why:
  the edit is equivalent or unreachable, or no property speaks about it.

The claim named in an entry is the one the edit was meant to break. Edits that did not type-check are not listed.

## Axioms

* `propext` (5): `C18_false`, `C37_false`, `C48_alert_codes_partial`, `C51_false`, `C52_false`
* `Quot.sound`, `propext` (34): `C03_hex_roundtrip`, `C20_limit`, `C21_refuses_unprotected`, `C24_order_partial`, `C24_false`, `C31_false`, `C35_rfc_encoding`, `C36_suite_codes`, `C38_choice`, `C38_refusal`, `C39_versions_partial`, `C41_first_partial`, `C48_decode`, `C48_swapped`, `C48_false`, `C51_parse`, `C51_before_1970`, `C53_false`, `C55_bytes_partial`, `C55_simple_loop`, `C55_false`, `C57_signature_algorithms_partial`, `C61_type_codes`, `C63_short_panics`, `C70_built`, `C76_request`, `C93_false`, `C107_silent`, `C108_server_separate`, `C112_independent`, `C112_any_order`, `C113_false`, `C113_panics`, `C117_count`
* `Classical.choice`, `Quot.sound`, `propext` (362): `C01_base64_roundtrip`, `C02_base64_decode_partial`, `C02_false`, `C03_reads`, `C03_prints`, `C04_int_bytes_partial`, `C04_be32_false`, `C04_fixed_width`, `C05_pem_roundtrip`, `C05_pem_lookup`, `C06_sha256_fips`, `C07_sha384_fips`, `C08_transcript_chunking`, `C09_hmac_partial`, `C09_false`, `C10_hkdf_extract_partial`, `C10_hkdf_expand`, `C10_false`, `C11_aes_fips`, `C12_gcm_sp800_38d`, `C12_gcm_decrypt`, `C13_chacha20_partial`, `C13_last_block_in_clear`, `C13_false`, `C14_poly1305_partial`, `C14_aead_tag`, `C14_false`, `C15_aead_round_trip`, `C16_only_right_tag`, `C17_record_round_trip`, `C18_record_parse_partial`, `C19_duplex_partial`, `C19_handshake_record`, `C19_false`, `C20_nonces_distinct`, `C21_protected_partial`, `C21_payload_in_clear`, `C21_false`, `C22_one_record_partial`, `C22_oversized`, `C22_false`, `C23_read_back_partial`, `C23_exact`, `C23_coalesced_loss`, `C23_false`, `C25_secrets`, `C25_traffic_keys`, `C25_finished`, `C26_mirrored`, `C27_modular`, `C28_group`, `C28_points`, `C28_order`, `C29_sign_verify`, `C29_sign_skips`, `C30_verify`, `C30_fips`, `C30_range`, `C31_der_partial`, `C31_small_wrong`, `C32_x25519`, `C32_group`, `C33_ecdh_partial`, `C33_false`, `C34_framing_partial`, `C34_panics_iff`, `C34_false`, `C35_client_hello_partial`, `C35_false`, `C36_server_hello`, `C36_reachable`, `C37_returns_partial`, `C37_terminates`, `C84_hellos`, `C37_truncated_client`, `C37_truncated_server`, `C39_false`, `C40_server_name`, `C40_reason`, `C41_not_first`, `C41_false`, `C42_server_accepts`, `C43_client_auth_partial`, `C43_valid_partial`, `C43_false`, `C44_recorded`, `C44_returned`, `C44_client_recorded`, `C44_client_returned`, `C44_client_connect`, `C45_client_connects`, `C46_false`, `C46_server_split`, `C46_server_partial`, `C46_client_partial`, `C46_client_cut`, `C46_client_replayed`, `C46_client_example`, `C47_data_after_finished_partial`, `C47_lost`, `C47_false`, `C47_example`, `C47_client_partial`, `C47_client_lost`, `C47_client_false`, `C47_client_example`, `C49_server`, `C49_received`, `C49_broken`, `C49_client`, `C49_client_received`, `C49_client_broken`, `C50_signed_fields_partial`, `C50_forged`, `C50_false`, `C51_unix_time_partial`, `C51_offset`, `C51_every_text`, `C51_converts_iff`, `C52_interval`, `C52_interval_partial`, `C53_terminates`, `C84_certificates`, `C53_returns_partial`, `C54_content`, `C55_range`, `C56_build`, `C56_client_build`, `C57_loses_last`, `C57_false`, `C58_lines`, `C58_server_silent`, `C58_client_silent`, `C58_server_lines`, `C58_client_lines`, `C59_server`, `C59_client`, `C60_handshake_partial`, `C60_nonces`, `C60_draws`, `C60_example`, `C60_false`, `C61_padding_partial`, `C61_false`, `C62_only_authentic`, `C63_returns_partial`, `C63_false`, `C64_understood_partial`, `C64_false`, `C65_honest_partial`, `C65_false`, `C66_read_authentic`, `C66_unprotected`, `C67_decode`, `C68_fields_partial`, `C68_signed`, `C68_false`, `C69_accepted_partial`, `C69_sound`, `C69_false`, `C70_read`, `C71_server_flight`, `C72_server_keys`, `C73_client_flight_partial`, `C73_no_certificate`, `C73_false`, `C74_client_keys`, `C75_server_completes`, `C75_server_flight_first`, `C75_server_leaves`, `C76_client_completes`, `C76_client_hello_first`, `C77_session_partial`, `C77_example`, `C77_false`, `C78_server_log`, `C78_client_log`, `C78_example`, `C79_key_partial`, `C79_other_curve`, `C79_false`, `C79_server`, `C80_certificate_partial`, `C80_x509_partial`, `C80_last`, `C80_crlf`, `C80_false`, `C81_server_partial`, `C81_example`, `C81_false`, `C82_client_partial`, `C82_example`, `C82_false`, `C83_peer_partial`, `C83_any_name`, `C83_false`, `C84_handshakes`, `C84_records`, `C85_channel`, `C85_server`, `C85_client`, `C86_delivery_partial`, `C86_results`, `C86_false`, `C87_selects_partial`, `C87_every_run_partial`, `C87_example`, `C87_false`, `C88_client_partial`, `C88_server_partial`, `C88_client_keys`, `C88_server_keys`, `C88_example`, `C89_written_partial`, `C89_records`, `C89_after_accept`, `C89_after_connect`, `C89_false`, `C90_valid_partial`, `C90_false`, `C91_read_partial`, `C91_accept_crashes`, `C91_connect_crashes`, `C91_truncated_accept`, `C91_truncated_connect`, `C91_false`, `C92_server_key`, `C92_client_key`, `C92_refused`, `C92_ca_panics`, `C93_exact_partial`, `C94_isolated_partial`, `C94_ends`, `C94_crash_iff`, `C94_serves_partial`, `C94_example`, `C94_five_bytes`, `C94_false`, `C95_otsmr_partial`, `C95_example`, `C95_false`, `C96_breaks_partial`, `C96_wire`, `C96_false`, `C97_page_partial`, `C97_lost`, `C97_any_cut_false`, `C97_false`, `C98_shipped_partial`, `C98_last_day`, `C98_false`, `C99_appends_partial`, `C99_appends_possible`, `C99_joined`, `C99_false`, `C100_nothing_missing`, `C100_closed_partial`, `C100_seen`, `C100_sent`, `C100_server`, `C100_client`, `C100_false`, `C101_refused_partial`, `C101_client_refuses`, `C101_server_refuses`, `C101_client_crashes`, `C101_no_retry`, `C101_false`, `C102_refused_partial`, `C102_client`, `C102_server`, `C102_client_encrypted`, `C102_server_encrypted`, `C102_false`, `C103_separate_partial`, `C103_server_stuck`, `C103_server_needs`, `C103_false`, `C104_server_partial`, `C104_server_refuses`, `C104_server_wrong_finished`, `C104_server_unsent`, `C104_false`, `C105_client_alert`, `C105_met`, `C106_reason_partial`, `C106_client_reason`, `C106_server_signature`, `C106_coincidence`, `C106_expired_example`, `C106_forging_example`, `C107_exact`, `C107_final_partial`, `C107_false`, `C108_even`, `C108_range`, `C108_residues`, `C108_client_separate`, `C108_false`, `C109_server_partial`, `C109_server_flood`, `C109_client_flood`, `C109_example`, `C109_false`, `C110_server_partial`, `C110_client_partial`, `C110_chacha`, `C111_false`, `C111_offers_partial`, `C111_every_run_partial`, `C113_wrong`, `C113_encrypt_partial`, `C113_decrypt_partial`, `C113_gmac`, `C114_false`, `C114_anything`, `C114_signed_partial`, `C114_none`, `C114_example`, `C115_false`, `C115_always`, `C115_sha256_partial`, `C115_refused`, `C115_taken`, `C116_replay`, `C116_fresh`, `C117_false`, `C117_chacha_partial`, `C117_never_changed`, `C117_after_accept`, `C118_false`, `C118_first_partial`, `C118_protected_partial`, `C118_ignored`, `C119_false`, `C119_first_partial`, `C119_protected_partial`, `C119_ignored`, `C120_server_proof`, `C120_fresh`, `C120_client_proof`, `C121_false`, `C121_any_type`, `C121_sealed_partial`, `C121_unknown`, `C122_false`, `C122_longest`, `C122_read_partial`, `C123_false`, `C123_ignored`, `C123_covered_partial`, `C124_false`, `C124_taken`, `C124_last_partial`, `C125_false`, `C125_ignored`, `C125_fixed_partial`, `C126_answered`, `C126_not_asked`, `C127_false`, `C127_ignored`, `C127_authentic_partial`
