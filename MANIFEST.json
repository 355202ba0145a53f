{
 "claims": [
  {
   "property": "C01",
   "status": "proved",
   "theorems": [
    "ATLS.C01_base64_roundtrip"
   ],
   "note": ""
  },
  {
   "property": "C02",
   "status": "partial",
   "theorems": [
    "ATLS.C02_base64_decode_partial",
    "ATLS.C02_false"
   ],
   "note": "False of the code as stated (witnesses proved); proved: length rule, exact decoding of unpadded alphabet text, exact panic condition."
  },
  {
   "property": "C03",
   "status": "proved",
   "theorems": [
    "ATLS.C03_hex_roundtrip",
    "ATLS.C03_reads",
    "ATLS.C03_prints"
   ],
   "note": "C03_reads says exactly which texts are read and as what; a plus sign before a digit is read as well."
  },
  {
   "property": "C04",
   "status": "partial",
   "theorems": [
    "ATLS.C04_int_bytes_partial",
    "ATLS.C04_be32_false",
    "ATLS.C04_fixed_width"
   ],
   "note": "32-byte big-endian output is wrong below 2^248 (proved); everything else proved."
  },
  {
   "property": "C05",
   "status": "proved",
   "theorems": [
    "ATLS.C05_pem_roundtrip",
    "ATLS.C05_pem_lookup"
   ],
   "note": ""
  },
  {
   "property": "C06",
   "status": "proved",
   "theorems": [
    "ATLS.C06_sha256_fips"
   ],
   "note": ""
  },
  {
   "property": "C07",
   "status": "proved",
   "theorems": [
    "ATLS.C07_sha384_fips"
   ],
   "note": ""
  },
  {
   "property": "C08",
   "status": "proved",
   "theorems": [
    "ATLS.C08_transcript_chunking"
   ],
   "note": ""
  },
  {
   "property": "C09",
   "status": "partial",
   "theorems": [
    "ATLS.C09_hmac_partial",
    "ATLS.C09_false"
   ],
   "note": "SHA-384 keys of 65..128 bytes deviate from RFC 2104 (proved); all other keys proved."
  },
  {
   "property": "C10",
   "status": "partial",
   "theorems": [
    "ATLS.C10_hkdf_extract_partial",
    "ATLS.C10_hkdf_expand",
    "ATLS.C10_false"
   ],
   "note": "Expand proved in full for HKDF pseudorandom keys; extract inherits the SHA-384 salt restriction of C09 (C10_false: false for a SHA-384 salt of 101 bytes)."
  },
  {
   "property": "C11",
   "status": "proved",
   "theorems": [
    "ATLS.C11_aes_fips"
   ],
   "note": ""
  },
  {
   "property": "C12",
   "status": "proved",
   "theorems": [
    "ATLS.C12_gcm_sp800_38d",
    "ATLS.C12_gcm_decrypt"
   ],
   "note": ""
  },
  {
   "property": "C13",
   "status": "partial",
   "theorems": [
    "ATLS.C13_chacha20_partial",
    "ATLS.C13_last_block_in_clear",
    "ATLS.C13_false"
   ],
   "note": "False of the code: when the length is a positive multiple of 64 the last 64 bytes are left in plaintext (proved). RFC 8439 equality proved for every other length up to 2^24."
  },
  {
   "property": "C14",
   "status": "partial",
   "theorems": [
    "ATLS.C14_poly1305_partial",
    "ATLS.C14_aead_tag",
    "ATLS.C14_false"
   ],
   "note": "Proved up to 2^24 bytes; beyond, the f32 block count is wrong (proved)."
  },
  {
   "property": "C15",
   "status": "proved",
   "theorems": [
    "ATLS.C15_aead_round_trip"
   ],
   "note": ""
  },
  {
   "property": "C16",
   "status": "proved",
   "theorems": [
    "ATLS.C16_only_right_tag"
   ],
   "note": ""
  },
  {
   "property": "C17",
   "status": "proved",
   "theorems": [
    "ATLS.C17_record_round_trip"
   ],
   "note": ""
  },
  {
   "property": "C18",
   "status": "partial",
   "theorems": [
    "ATLS.C18_record_parse_partial",
    "ATLS.C18_false"
   ],
   "note": "False of the code: a buffer 1 to 3 bytes short of the announced record passes the length check and panics (proved); proved for every other buffer."
  },
  {
   "property": "C19",
   "status": "partial",
   "theorems": [
    "ATLS.C19_duplex_partial",
    "ATLS.C19_handshake_record",
    "ATLS.C19_false"
   ],
   "note": "Proved for every schedule of records up to 65518 bytes; longer ones overflow the 16-bit length (proved)."
  },
  {
   "property": "C20",
   "status": "proved",
   "theorems": [
    "ATLS.C20_nonces_distinct",
    "ATLS.C20_limit"
   ],
   "note": ""
  },
  {
   "property": "C21",
   "status": "partial",
   "theorems": [
    "ATLS.C21_refuses_unprotected",
    "ATLS.C21_protected_partial",
    "ATLS.C21_payload_in_clear",
    "ATLS.C21_false"
   ],
   "note": "Writes before key establishment are refused (proved). False for ChaCha20-Poly1305 when payload+1 is a multiple of 64: the last 63 bytes go out in clear (proved)."
  },
  {
   "property": "C22",
   "status": "partial",
   "theorems": [
    "ATLS.C22_one_record_partial",
    "ATLS.C22_oversized",
    "ATLS.C22_false"
   ],
   "note": "Proved when the buffer fits one record; a longer buffer is truncated modulo 2^16 in the header (proved)."
  },
  {
   "property": "C23",
   "status": "partial",
   "theorems": [
    "ATLS.C23_read_back_partial",
    "ATLS.C23_exact",
    "ATLS.C23_coalesced_loss",
    "ATLS.C23_false"
   ],
   "note": "Proved when each transport read delivers exactly one record of at most 4074 content bytes; coalesced records are lost (proved). C23_exact: for payloads of up to 2^14 bytes and every segmentation into reads of at most 4096 bytes, the payloads are read back if and only if each read holds exactly one record and the caller's buffer is large enough, so the condition of the partial theorem cannot be weakened."
  },
  {
   "property": "C24",
   "status": "partial",
   "theorems": [
    "ATLS.C24_order_partial",
    "ATLS.C24_false"
   ],
   "note": "Proved for handshake records; alerts overtake buffered records (proved)."
  },
  {
   "property": "C25",
   "status": "proved",
   "theorems": [
    "ATLS.C25_secrets",
    "ATLS.C25_traffic_keys",
    "ATLS.C25_finished"
   ],
   "note": ""
  },
  {
   "property": "C26",
   "status": "proved",
   "theorems": [
    "ATLS.C26_mirrored"
   ],
   "note": ""
  },
  {
   "property": "C27",
   "status": "proved",
   "theorems": [
    "ATLS.C27_modular"
   ],
   "note": ""
  },
  {
   "property": "C28",
   "status": "proved",
   "theorems": [
    "ATLS.C28_group",
    "ATLS.C28_points",
    "ATLS.C28_order"
   ],
   "note": "Every point and every integer scalar; includes a proof that the group has exactly n points."
  },
  {
   "property": "C29",
   "status": "proved",
   "theorems": [
    "ATLS.C29_sign_verify",
    "ATLS.C29_sign_skips"
   ],
   "note": ""
  },
  {
   "property": "C30",
   "status": "proved",
   "theorems": [
    "ATLS.C30_verify",
    "ATLS.C30_fips",
    "ATLS.C30_range"
   ],
   "note": "The code does not truncate hashes above 32 bytes; it only passes SHA-256 values."
  },
  {
   "property": "C31",
   "status": "partial",
   "theorems": [
    "ATLS.C31_der_partial",
    "ATLS.C31_small_wrong",
    "ATLS.C31_false"
   ],
   "note": "Holds for r and s of at least 2^248; smaller components are left-aligned and sent as other numbers, so about one signature in 128 is wrong."
  },
  {
   "property": "C32",
   "status": "proved",
   "theorems": [
    "ATLS.C32_x25519",
    "ATLS.C32_group"
   ],
   "note": "Equality with RFC 7748's function for all 32-byte inputs (the result is ok, so no i64 overflow), and its meaning in the group of points of Curve25519."
  },
  {
   "property": "C33",
   "status": "partial",
   "theorems": [
    "ATLS.C33_ecdh_partial",
    "ATLS.C33_false"
   ],
   "note": "Holds for all private keys whose public shares do not start with a zero byte; false otherwise (a leading zero byte of the received share is dropped)."
  },
  {
   "property": "C34",
   "status": "partial",
   "theorems": [
    "ATLS.C34_framing_partial",
    "ATLS.C34_panics_iff",
    "ATLS.C34_false"
   ],
   "note": "Framing proved for complete messages; exact panic condition of the parser proved; truncated messages panic (proved)."
  },
  {
   "property": "C35",
   "status": "partial",
   "theorems": [
    "ATLS.C35_client_hello_partial",
    "ATLS.C35_rfc_encoding",
    "ATLS.C35_false"
   ],
   "note": "Proved for server names up to 65459 bytes; longer ones wrap the 16-bit extension length (proved)."
  },
  {
   "property": "C36",
   "status": "proved",
   "theorems": [
    "ATLS.C36_suite_codes",
    "ATLS.C36_server_hello",
    "ATLS.C36_reachable"
   ],
   "note": "C36_reachable shows that every ServerHello the server builds for a received ClientHello meets the hypotheses of C36_server_hello."
  },
  {
   "property": "C37",
   "status": "partial",
   "theorems": [
    "ATLS.C37_returns_partial",
    "ATLS.C37_terminates",
    "ATLS.C84_hellos",
    "ATLS.C37_truncated_client",
    "ATLS.C37_truncated_server",
    "ATLS.C37_false"
   ],
   "note": "Termination proved for every input; absence of panics proved for every RFC-encoded hello with a session id of 0 or 32 bytes; C37_truncated_client and C37_truncated_server say exactly which truncated hellos panic."
  },
  {
   "property": "C38",
   "status": "proved",
   "theorems": [
    "ATLS.C38_choice",
    "ATLS.C38_refusal"
   ],
   "note": ""
  },
  {
   "property": "C39",
   "status": "partial",
   "theorems": [
    "ATLS.C39_versions_partial",
    "ATLS.C39_false"
   ],
   "note": "A hello without supported_versions is answered; one whose supported_versions lacks TLS 1.3 is refused."
  },
  {
   "property": "C40",
   "status": "proved",
   "theorems": [
    "ATLS.C40_server_name",
    "ATLS.C40_reason"
   ],
   "note": ""
  },
  {
   "property": "C41",
   "status": "partial",
   "theorems": [
    "ATLS.C41_first_partial",
    "ATLS.C41_not_first",
    "ATLS.C41_false"
   ],
   "note": "Only when the X25519 share comes first; a P-256 share before it panics the server, other groups before it make the key exchange fail."
  },
  {
   "property": "C42",
   "status": "proved",
   "theorems": [
    "ATLS.C42_server_accepts"
   ],
   "note": "For every client, TCP segmentation, randomness and configuration with a certificate below 16 MiB. Accepted spells out everything received and sent."
  },
  {
   "property": "C43",
   "status": "partial",
   "theorems": [
    "ATLS.C43_client_auth_partial",
    "ATLS.C43_valid_partial",
    "ATLS.C43_false"
   ],
   "note": "Certificate, CA signature, custom function and proof of possession proved for every client. That the certificate is valid now by its signed validity period is proved for certificates to which nothing was appended and whose start is not after February of a leap year (an end there errs on the safe side). C43_false: an expired certificate with a later date appended to it is accepted, in a complete handshake."
  },
  {
   "property": "C44",
   "status": "proved",
   "theorems": [
    "ATLS.C44_recorded",
    "ATLS.C44_returned",
    "ATLS.C44_client_recorded",
    "ATLS.C44_client_returned",
    "ATLS.C44_client_connect"
   ],
   "note": "For both sides: an error recorded in the state, and an error returned by the handling of a read."
  },
  {
   "property": "C45",
   "status": "proved",
   "theorems": [
    "ATLS.C45_client_connects"
   ],
   "note": "For every configuration, byte sequence and delivery. The client does not validate the server's certificate against any CA: the code has no such check, and the property does not claim one."
  },
  {
   "property": "C46",
   "status": "partial",
   "theorems": [
    "ATLS.C46_false",
    "ATLS.C46_server_split",
    "ATLS.C46_server_partial",
    "ATLS.C46_client_partial",
    "ATLS.C46_client_cut",
    "ATLS.C46_client_replayed",
    "ATLS.C46_client_example"
   ],
   "note": "The property is violated by the code: a record that does not end with the read it begins in breaks the server's handshake (C46_server_split, C46_false). The client keeps the beginning of a record, but a read that ends within the last three bytes of a record makes it panic (C46_client_cut), and when the read with the end of a record also has the beginning of the next one it handles the record twice (C46_client_replayed). Proved for the server when reads consist of whole records (at most 4096 bytes), and for the client for all other reads of at most 2048 bytes (Spec/Pieces.lean), when no unprotected alert follows the records that complete the handshake."
  },
  {
   "property": "C47",
   "status": "partial",
   "theorems": [
    "ATLS.C47_data_after_finished_partial",
    "ATLS.C47_lost",
    "ATLS.C47_false",
    "ATLS.C47_example",
    "ATLS.C47_client_partial",
    "ATLS.C47_client_lost",
    "ATLS.C47_client_false",
    "ATLS.C47_client_example"
   ],
   "note": "The property is false: application records in the TCP read that contains the client's Finished are dropped, for every conforming client (C47_lost, C47_false); the client drops those that come with the server's Finished (C47_client_lost, C47_client_false). Proved for both sides: data that arrives in later reads, one record per read, is delivered, however the handshake records are grouped."
  },
  {
   "property": "C48",
   "status": "partial",
   "theorems": [
    "ATLS.C48_alert_codes_partial",
    "ATLS.C48_decode",
    "ATLS.C48_swapped",
    "ATLS.C48_false"
   ],
   "note": "Proved for every alert except three: BadRecordMac is sent as close_notify (C48_false), and the codes of DecodeError and DecryptError are swapped, both sent and received (C48_swapped)."
  },
  {
   "property": "C49",
   "status": "proved",
   "theorems": [
    "ATLS.C49_server",
    "ATLS.C49_received",
    "ATLS.C49_broken",
    "ATLS.C49_client",
    "ATLS.C49_client_received",
    "ATLS.C49_client_broken"
   ],
   "note": "Both sides. That the alert reaches the wire assumes the socket takes it."
  },
  {
   "property": "C50",
   "status": "partial",
   "theorems": [
    "ATLS.C50_signed_fields_partial",
    "ATLS.C50_forged",
    "ATLS.C50_false"
   ],
   "note": "Serial number, notBefore, issuer and key are proved to be the signed ones whatever follows them; notAfter and the subject can be replaced by unsigned bytes appended inside the outer SEQUENCE, proved for every accepted certificate."
  },
  {
   "property": "C51",
   "status": "partial",
   "theorems": [
    "ATLS.C51_parse",
    "ATLS.C51_unix_time_partial",
    "ATLS.C51_offset",
    "ATLS.C51_before_1970",
    "ATLS.C51_every_text",
    "ATLS.C51_converts_iff",
    "ATLS.C51_false"
   ],
   "note": "Right for all dates but those from 1 March on in leap years, which are taken one day early; years before 1970 panic."
  },
  {
   "property": "C52",
   "status": "partial",
   "theorems": [
    "ATLS.C52_interval",
    "ATLS.C52_interval_partial",
    "ATLS.C52_false"
   ],
   "note": "Interval test proved in terms of the computed times and, outside the dates of C51_false, of the calendar; an absent bound never excludes."
  },
  {
   "property": "C53",
   "status": "partial",
   "theorems": [
    "ATLS.C53_terminates",
    "ATLS.C84_certificates",
    "ATLS.C53_returns_partial",
    "ATLS.C53_false"
   ],
   "note": "Terminates on every input; returns on every well-formed certificate; panics on some malformed inputs and on NULL algorithm parameters."
  },
  {
   "property": "C54",
   "status": "proved",
   "theorems": [
    "ATLS.C54_content"
   ],
   "note": ""
  },
  {
   "property": "C55",
   "status": "partial",
   "theorems": [
    "ATLS.C55_range",
    "ATLS.C55_bytes_partial",
    "ATLS.C55_simple_loop",
    "ATLS.C55_false"
   ],
   "note": "The range is proved for all generators; bytes(n) only for /dev/urandom and n <= 100. The simple generator returns no bytes (or never returns)."
  },
  {
   "property": "C56",
   "status": "proved",
   "theorems": [
    "ATLS.C56_build",
    "ATLS.C56_client_build"
   ],
   "note": ""
  },
  {
   "property": "C57",
   "status": "partial",
   "theorems": [
    "ATLS.C57_signature_algorithms_partial",
    "ATLS.C57_loses_last",
    "ATLS.C57_false"
   ],
   "note": "Proved for the empty list; the parser always loses the last entry of a non-empty list (proved)."
  },
  {
   "property": "C58",
   "status": "proved",
   "theorems": [
    "ATLS.C58_lines",
    "ATLS.C58_server_silent",
    "ATLS.C58_client_silent",
    "ATLS.C58_server_lines",
    "ATLS.C58_client_lines"
   ],
   "note": "Both sides, for every run."
  },
  {
   "property": "C59",
   "status": "proved",
   "theorems": [
    "ATLS.C59_server",
    "ATLS.C59_client"
   ],
   "note": "For every sequence of records after the first one, every insertion and all deliveries of C46 (server: whole records, client: also records in pieces); as in C46, no unprotected alert follows the records that complete the handshake."
  },
  {
   "property": "C60",
   "status": "partial",
   "theorems": [
    "ATLS.C60_handshake_partial",
    "ATLS.C60_nonces",
    "ATLS.C60_draws",
    "ATLS.C60_example",
    "ATLS.C60_false"
   ],
   "note": "Proved for all configurations, random values and groupings into reads when neither key share starts with a zero byte and the numbers of the signatures have a full 32 bytes. Missing: a share that starts with a zero byte makes the secrets differ (C33_false), a shorter number of a signature is encoded wrongly (C69_false; C60_false: with the nonce 379 the client refuses the server)."
  },
  {
   "property": "C61",
   "status": "partial",
   "theorems": [
    "ATLS.C61_type_codes",
    "ATLS.C61_padding_partial",
    "ATLS.C61_false"
   ],
   "note": "Proved for AES-GCM and for ChaCha20-Poly1305 inner lengths not a multiple of 64; false for the others (proved)."
  },
  {
   "property": "C62",
   "status": "proved",
   "theorems": [
    "ATLS.C62_only_authentic"
   ],
   "note": ""
  },
  {
   "property": "C63",
   "status": "partial",
   "theorems": [
    "ATLS.C63_returns_partial",
    "ATLS.C63_short_panics",
    "ATLS.C63_false"
   ],
   "note": "Proved for bodies of at least 16 bytes; every shorter body panics (proved)."
  },
  {
   "property": "C64",
   "status": "partial",
   "theorems": [
    "ATLS.C64_understood_partial",
    "ATLS.C64_false"
   ],
   "note": "Proved when the session id is empty or 32 bytes and all offered key-share groups are known; an unknown (e.g. GREASE) group is refused (proved)."
  },
  {
   "property": "C65",
   "status": "partial",
   "theorems": [
    "ATLS.C65_honest_partial",
    "ATLS.C65_false"
   ],
   "note": "The all-zero check of RFC 8446 7.4.2 is missing: proved for every private key that a zero share is accepted with an all-zero secret. Honest shares never give an all-zero secret."
  },
  {
   "property": "C66",
   "status": "proved",
   "theorems": [
    "ATLS.C66_read_authentic",
    "ATLS.C66_unprotected"
   ],
   "note": "A buffer that is too small, and a record not completely received, make tls_read panic (todo!); nothing is ever cut or reordered silently."
  },
  {
   "property": "C67",
   "status": "proved",
   "theorems": [
    "ATLS.C67_decode"
   ],
   "note": "For every r and s whose encoding has less than 2^30 octets."
  },
  {
   "property": "C68",
   "status": "partial",
   "theorems": [
    "ATLS.C68_fields_partial",
    "ATLS.C68_signed",
    "ATLS.C68_false"
   ],
   "note": "For to-be-signed parts of at least 256 bytes; of shorter ones the wrong bytes are hashed."
  },
  {
   "property": "C69",
   "status": "partial",
   "theorems": [
    "ATLS.C69_accepted_partial",
    "ATLS.C69_sound",
    "ATLS.C69_false"
   ],
   "note": "Soundness in full; acceptance when r and s have 32 bytes."
  },
  {
   "property": "C70",
   "status": "proved",
   "theorems": [
    "ATLS.C70_built",
    "ATLS.C70_read"
   ],
   "note": ""
  },
  {
   "property": "C71",
   "status": "proved",
   "theorems": [
    "ATLS.C71_server_flight"
   ],
   "note": ""
  },
  {
   "property": "C72",
   "status": "proved",
   "theorems": [
    "ATLS.C72_server_keys"
   ],
   "note": ""
  },
  {
   "property": "C73",
   "status": "partial",
   "theorems": [
    "ATLS.C73_client_flight_partial",
    "ATLS.C73_no_certificate",
    "ATLS.C73_false"
   ],
   "note": "Proved for a client with a certificate and for handshakes without a request. A client without a certificate answers a request with a Certificate message that is not RFC 8446's (C73_no_certificate, C73_false)."
  },
  {
   "property": "C74",
   "status": "proved",
   "theorems": [
    "ATLS.C74_client_keys"
   ],
   "note": ""
  },
  {
   "property": "C75",
   "status": "proved",
   "theorems": [
    "ATLS.C75_server_completes",
    "ATLS.C75_server_flight_first",
    "ATLS.C75_server_leaves"
   ],
   "note": "Conforming describes the client with the vocabulary of C42/C43 (Props/ServerDefs). The configured generator is /dev/urandom, the certificate is smaller than 2^24 - 200 bytes, reads hold whole records."
  },
  {
   "property": "C76",
   "status": "proved",
   "theorems": [
    "ATLS.C76_client_completes",
    "ATLS.C76_client_hello_first",
    "ATLS.C76_request"
   ],
   "note": "ConformingServer describes the server with the vocabulary of C44/C45 (Props/ClientDefs): the certificate has to pass the client's own check. Reads may cut records as in Spec/Pieces.lean; a configured client certificate is smaller than 2^24 - 400 bytes. A certificate request may be any of RFC 8446 4.3.2."
  },
  {
   "property": "C77",
   "status": "partial",
   "theorems": [
    "ATLS.C77_session_partial",
    "ATLS.C77_example",
    "ATLS.C77_false"
   ],
   "note": "Proved for all matching configurations, all call sequences on both ends and all groupings of the handshake records into reads, when neither key share starts with a zero byte, the numbers of the signatures have a full 32 bytes, payloads have at most 4074 bytes and data arrives one record per read. Missing: what C33_false, C69_false, C23_false, C46_false and C47_false show to fail (C77_false: with the nonce 379 no session begins)."
  },
  {
   "property": "C78",
   "status": "proved",
   "theorems": [
    "ATLS.C78_server_log",
    "ATLS.C78_client_log",
    "ATLS.C78_example"
   ],
   "note": "For every completed handshake on either side: the secrets are those of the independent RFC 8446 key schedule (Spec.Tls13.Session) for the messages of the transcript that the handshake theorems C42 and C45 tie to the bytes on the wire. C78_example: runs of both sides whose log has the four lines."
  },
  {
   "property": "C79",
   "status": "partial",
   "theorems": [
    "ATLS.C79_key_partial",
    "ATLS.C79_other_curve",
    "ATLS.C79_false",
    "ATLS.C79_server"
   ],
   "note": "Proved for every P-256 key. Keys for other curves are not refused: every P-384 key is silently read as a P-256 key (C79_other_curve). C79_server: the key and certificate files of the repository give the configuration of the examples."
  },
  {
   "property": "C80",
   "status": "partial",
   "theorems": [
    "ATLS.C80_certificate_partial",
    "ATLS.C80_x509_partial",
    "ATLS.C80_last",
    "ATLS.C80_crlf",
    "ATLS.C80_false"
   ],
   "note": "Proved for files with one certificate and LF line ends. Of a chain file the last certificate is read instead of the first (C80_last); a file with CRLF line ends never gives a certificate (C80_crlf)."
  },
  {
   "property": "C81",
   "status": "partial",
   "theorems": [
    "ATLS.C81_server_partial",
    "ATLS.C81_example",
    "ATLS.C81_false"
   ],
   "note": "The stream returned has the traffic keys of RFC 8446 (Transport), and what arrives after the last handshake record is left for the application. The client is described by RFC 8446 alone (Spec/Peer.lean), and the server's own messages by the RFC's server. Proved when the session id has 0 or 32 bytes, the X25519 share comes first and the other shares are of the RFC's groups and have at least 4 bytes, neither the client's public value nor the shared secret starts with a zero byte, the server's signature numbers have 32 bytes, every message of the client's answer is in its own record, the client's certificate (if asked for) is below 64 KiB with a signed part of at least 256 bytes, dates from 1970 on and not on its last day after a leap February, and no ChaCha20-Poly1305 record has a plaintext length divisible by 64. C81_false: a client that offers an unknown (GREASE) group is refused."
  },
  {
   "property": "C82",
   "status": "partial",
   "theorems": [
    "ATLS.C82_client_partial",
    "ATLS.C82_example",
    "ATLS.C82_false"
   ],
   "note": "The stream returned has the traffic keys of RFC 8446 (Transport). The server is described by RFC 8446 alone (Spec/Peer.lean), not by the model. Proved when neither the server's public value nor the shared secret starts with a zero byte, the certificate is below 64 KiB with dates from 1970 on and not on its last day after a leap February, the client has a certificate when asked for one, its signature numbers have 32 bytes, and no ChaCha20-Poly1305 record has a plaintext length divisible by 64. C82_false: a client without a certificate answers a request with a message that is not RFC 8446's."
  },
  {
   "property": "C83",
   "status": "partial",
   "theorems": [
    "ATLS.C83_peer_partial",
    "ATLS.C83_any_name",
    "ATLS.C83_false"
   ],
   "note": "What connect establishes about the peer is C83_peer_partial: a certificate valid now and possession of its key. The configured name is not compared with the certificate and no authority is involved: C83_any_name shows that whatever name is configured, the client connects to a server that has the key of the repository's own certificate (C83_false)."
  },
  {
   "property": "C84",
   "status": "proved",
   "theorems": [
    "ATLS.C84_handshakes",
    "ATLS.C84_records",
    "ATLS.C84_hellos",
    "ATLS.C84_certificates"
   ],
   "note": "EndsWithin (Spec/Recursion.lean) says that the result does not depend on what replaces further calls, so it tells an endless loop from a panic. Stack depth is not modelled."
  },
  {
   "property": "C85",
   "status": "proved",
   "theorems": [
    "ATLS.C85_channel",
    "ATLS.C85_server",
    "ATLS.C85_client"
   ],
   "note": "Cryptographic assumption, as an explicit hypothesis: no record in the incoming bytes opens under the peer's key and a sequence number unless the peer sealed it under that number (Tls13.NoForgery, Spec/Channel.lean). C85_server and C85_client start from the stream that accept and connect return."
  },
  {
   "property": "C86",
   "status": "partial",
   "theorems": [
    "ATLS.C86_delivery_partial",
    "ATLS.C86_results",
    "ATLS.C86_false"
   ],
   "note": "Proved when the peer sends no KeyUpdate, no record above 4096 bytes and, with ChaCha20-Poly1305, no plaintext length divisible by 64 (C23, C61). C86_results gives the exact result of every read for these: data is returned, a ticket or a close_notify makes tls_read return UnexpectedMessage, and later data still arrives. C86_false: data after a KeyUpdate is never received."
  },
  {
   "property": "C87",
   "status": "partial",
   "theorems": [
    "ATLS.C87_selects_partial",
    "ATLS.C87_every_run_partial",
    "ATLS.C87_example",
    "ATLS.C87_false"
   ],
   "note": "Proved: the message is a ServerHello with legacy version 0x0303, one of the three suites, supported_versions 0x0304 and an X25519 key share, and the shared secret is that with this share (C87_every_run_partial, however the bytes arrive). C87_false: another session id than the client's is accepted (C87_example: any). The compression byte, further extensions and the extensions' lengths are not checked either."
  },
  {
   "property": "C88",
   "status": "partial",
   "theorems": [
    "ATLS.C88_client_partial",
    "ATLS.C88_server_partial",
    "ATLS.C88_client_keys",
    "ATLS.C88_server_keys",
    "ATLS.C88_example"
   ],
   "note": "Proved for both directions: equal Finished messages without a hash collision (the inputs are named in Spec/Agreement.lean) mean equal transcripts; the ClientHello the server answered is the client's; and if no further bytes were added to the records with the two hellos, the ServerHello, the suite and the certificate agree. Missing: when bytes were added after a hello in its record (the library hashes them and goes on) the two ends may split the equal hellos differently. C88_client_keys and C88_server_keys cover that case too: without a hash collision in the key schedule the two ends have the same hellos as hashed, the same shared secret, transcript, traffic secrets and server certificate whatever was added, and with the same suite each reads what the other writes. C88_example: the library's own client and server, with client authentication, meet all hypotheses."
  },
  {
   "property": "C89",
   "status": "partial",
   "theorems": [
    "ATLS.C89_written_partial",
    "ATLS.C89_records",
    "ATLS.C89_after_accept",
    "ATLS.C89_after_connect",
    "ATLS.C89_false"
   ],
   "note": "Proved for writes of at most 2^14 bytes and, with ChaCha20-Poly1305, of lengths other than 63 modulo 64 (see C13): exactly one record per write. C89_after_accept and C89_after_connect state it (and C86) for the streams the two handshakes return, with RFC 8446's application traffic secrets. C89_false: a larger write is not split, so its record exceeds the limit of RFC 8446 and every peer must refuse it."
  },
  {
   "property": "C90",
   "status": "partial",
   "theorems": [
    "ATLS.C90_valid_partial",
    "ATLS.C90_false"
   ],
   "note": "Proved for certificates to which nothing was appended and whose start is not after February of a leap year. C90_false: in a complete handshake the client accepts an expired certificate with a later date appended to it."
  },
  {
   "property": "C91",
   "status": "partial",
   "theorems": [
    "ATLS.C91_read_partial",
    "ATLS.C91_accept_crashes",
    "ATLS.C91_connect_crashes",
    "ATLS.C91_truncated_accept",
    "ATLS.C91_truncated_connect",
    "ATLS.C91_false"
   ],
   "note": "False of the code. For tls_read on a protected stream the reads that crash it are characterised exactly: a record cut one to three bytes short, a body shorter than the tag, authentic data longer than the caller's buffer. Every server, and every client that has sent its hello, crashes on the five bytes 16 03 03 00 03. For a server that gets a ClientHello, and a client that gets a ServerHello, of which only the first k bytes are there (in a message and record of their own) it is proved for every k whether it crashes or which alert it sends. Missing: an exact characterisation for the handshakes."
  },
  {
   "property": "C92",
   "status": "proved",
   "theorems": [
    "ATLS.C92_server_key",
    "ATLS.C92_client_key",
    "ATLS.C92_refused",
    "ATLS.C92_ca_panics"
   ],
   "note": "For certificates whose signed part is RFC 5280's with a key on any curve, behind the four-byte header the library assumes. Beside it: a CA certificate with a key on another curve makes the check panic instead of refuse."
  },
  {
   "property": "C93",
   "status": "partial",
   "theorems": [
    "ATLS.C93_exact_partial",
    "ATLS.C93_false"
   ],
   "note": "False of the code: elements of other types than INTEGER are read as numbers, and the length of the SEQUENCE is not compared with its contents. The set of accepted inputs, with the numbers each stands for, is characterised exactly. Missing: what C93_false shows to fail."
  },
  {
   "property": "C94",
   "status": "partial",
   "theorems": [
    "ATLS.C94_isolated_partial",
    "ATLS.C94_ends",
    "ATLS.C94_crash_iff",
    "ATLS.C94_serves_partial",
    "ATLS.C94_example",
    "ATLS.C94_five_bytes",
    "ATLS.C94_false"
   ],
   "note": "False of the code: five bytes on one connection end the process. Proved when no earlier connection crashed; the connections that crash the process are characterised up to panics of accept; the clients of C81's guard that send their request in one record get the page."
  },
  {
   "property": "C95",
   "status": "partial",
   "theorems": [
    "ATLS.C95_otsmr_partial",
    "ATLS.C95_example",
    "ATLS.C95_false"
   ],
   "note": "False of the code: the holder of any certificate signed by the CA can add the common name otsmr to it after the signed part. Proved for certificates as they were issued (below 64 KiB, signed part of at least 256 bytes). The concrete case is the client and CA of the repository."
  },
  {
   "property": "C96",
   "status": "partial",
   "theorems": [
    "ATLS.C96_breaks_partial",
    "ATLS.C96_wire",
    "ATLS.C96_false"
   ],
   "note": "False of the code: a failed write is not remembered, and the next one is reported as written although its record follows a cut one (or a missing one: the sequence number is used up). Proved for connections that break at most once, for good; C96_wire gives the bytes on the wire for every history."
  },
  {
   "property": "C97",
   "status": "partial",
   "theorems": [
    "ATLS.C97_page_partial",
    "ATLS.C97_lost",
    "ATLS.C97_any_cut_false",
    "ATLS.C97_false"
   ],
   "note": "False of the code: the client sends its request right after its Finished, and if TCP joins the two the server drops the request, sends nothing and the client waits (C97_lost, for every pair). Proved when the request arrives in a read of its own, handshake records grouped in any way, and for the random values of C60."
  },
  {
   "property": "C98",
   "status": "partial",
   "theorems": [
    "ATLS.C98_shipped_partial",
    "ATLS.C98_last_day",
    "ATLS.C98_false"
   ],
   "note": "False of the code: the request may be lost as in C97 (C98_false), and on the last day of its validity no client completes a connection in which server.cert is shown (C98_last_day, the leap-year error of C52). Proved for every earlier moment of the validity, with the random values and arrivals of C97_page_partial, for both pairs of programs and the repository's own files."
  },
  {
   "property": "C99",
   "status": "partial",
   "theorems": [
    "ATLS.C99_appends_partial",
    "ATLS.C99_appends_possible",
    "ATLS.C99_joined",
    "ATLS.C99_false"
   ],
   "note": "False of the code: the content and its line end are two writes, so when two appends overlap two secrets are on one line (C99_joined, for every two connections that log; C99_false). Proved for any number of connections in every order in which no append begins between the two writes of another. Assumed: opening the file and the writes succeed, and writeln! on a File makes one write for the content and one for the line end."
  },
  {
   "property": "C100",
   "status": "partial",
   "theorems": [
    "ATLS.C100_nothing_missing",
    "ATLS.C100_closed_partial",
    "ATLS.C100_seen",
    "ATLS.C100_sent",
    "ATLS.C100_server",
    "ATLS.C100_client",
    "ATLS.C100_false"
   ],
   "note": "Proved for every peer: UnexpectedMessage after successful reads means that the peer has sent exactly the data read and then something that is not application data. That this is close_notify is proved for peers that send nothing else; a ticket or a KeyUpdate gives the same error (C100_false). The library sends close_notify only when the application calls write_alert (C100_sent)."
  },
  {
   "property": "C101",
   "status": "partial",
   "theorems": [
    "ATLS.C101_refused_partial",
    "ATLS.C101_client_refuses",
    "ATLS.C101_server_refuses",
    "ATLS.C101_client_crashes",
    "ATLS.C101_no_retry",
    "ATLS.C101_false"
   ],
   "note": "Proved for the server, and for a client asked for a group it does not know or for a cookie only. For a known group - secp256r1 is offered without a share, so a server may ask for it - every client panics (C101_client_crashes, C101_false). Neither party ever completes such an exchange (C101_no_retry). The HelloRetryRequest arrives in one read."
  },
  {
   "property": "C102",
   "status": "partial",
   "theorems": [
    "ATLS.C102_refused_partial",
    "ATLS.C102_client",
    "ATLS.C102_server",
    "ATLS.C102_client_encrypted",
    "ATLS.C102_server_encrypted",
    "ATLS.C102_false"
   ],
   "note": "False of the code: a message of which at least the four header bytes are in the first record crashes the library, on both sides, before and after the keys are set up. Proved for first parts of less than four bytes, which are refused with an alert. No split message is ever put together."
  },
  {
   "property": "C103",
   "status": "partial",
   "theorems": [
    "ATLS.C103_separate_partial",
    "ATLS.C103_server_stuck",
    "ATLS.C103_server_needs",
    "ATLS.C103_false"
   ],
   "note": "True of the client. False of the server: it takes one message from each record, so a server that asks for a certificate never completes the handshake with a client that puts CertificateVerify or Finished into a record with another message (proved for every such client and server). Proved when each message of the client is in its own record."
  },
  {
   "property": "C104",
   "status": "partial",
   "theorems": [
    "ATLS.C104_server_partial",
    "ATLS.C104_server_refuses",
    "ATLS.C104_server_wrong_finished",
    "ATLS.C104_server_unsent",
    "ATLS.C104_false"
   ],
   "note": "Proved for a hello the server cannot parse (plaintext alert) and for every refused client certificate (alert under the application key after the flight). False otherwise: a wrong Finished is answered under the handshake key, which the client no longer uses (proved for every such client), and when bad data shares the read with the hello only the alert is sent, not the ServerHello that its key depends on (proved for every server whose first flight is below 2048 bytes)."
  },
  {
   "property": "C105",
   "status": "proved",
   "theorems": [
    "ATLS.C105_client_alert",
    "ATLS.C105_met"
   ],
   "note": "For every own error (not a received alert, not a broken connection) on a connection without write failures. The client is assumed to have a key for its certificate, as the builder ensures. C105_met: the example client meets a server that leaves out EncryptedExtensions."
  },
  {
   "property": "C106",
   "status": "partial",
   "theorems": [
    "ATLS.C106_reason_partial",
    "ATLS.C106_client_reason",
    "ATLS.C106_server_signature",
    "ATLS.C106_coincidence",
    "ATLS.C106_expired_example",
    "ATLS.C106_forging_example"
   ],
   "note": "Proved for every server a client refuses and for every client certificate a server refuses. Missing: a CertificateVerify message the server refuses; there the server leaves the message out of its transcript and so reports DecryptError to every client whose Finished covers it (C106_server_signature), unless verify data coincide (C106_coincidence)."
  },
  {
   "property": "C107",
   "status": "partial",
   "theorems": [
    "ATLS.C107_exact",
    "ATLS.C107_final_partial",
    "ATLS.C107_silent",
    "ATLS.C107_false"
   ],
   "note": "C107_exact gives the result of every read: what the peer sent under number i if the peer's record number i is what arrives, DecryptError for anything else. So an attack that changes the number of records is final (C107_final_partial), but after a replaced record the next one is read as if nothing had happened (C107_false). tls_read sends nothing, so the peer is not told (C107_silent). Cryptographic assumption, as an explicit hypothesis: what opens under a number is the peer's record of that number (Tls13.Unforged)."
  },
  {
   "property": "C108",
   "status": "partial",
   "theorems": [
    "ATLS.C108_even",
    "ATLS.C108_range",
    "ATLS.C108_residues",
    "ATLS.C108_client_separate",
    "ATLS.C108_server_separate",
    "ATLS.C108_false"
   ],
   "note": "Counting all 256^100 results of a read: every number from 2^8 to 2^256-1 is drawn, none more than 1+2^-80 times as often as another, and no other number. A nonce acts modulo the order n of P-256 and is not reduced evenly: C108_residues says which residues come from two numbers, and C108_false refutes evenness over the residues. Key, random, session id and request context come from different reads (C108_client_separate, C108_server_separate)."
  },
  {
   "property": "C109",
   "status": "partial",
   "theorems": [
    "ATLS.C109_server_partial",
    "ATLS.C109_server_flood",
    "ATLS.C109_client_flood",
    "ATLS.C109_example",
    "ATLS.C109_false"
   ],
   "note": "False as stated (C109_false): between the hello and the rest of the flight any number of change_cipher_spec records is read and the handshake then still completes, for every conforming peer (C109_server_flood, C109_client_flood). Proved for the server, when each read brings one segment and no client certificate is asked for or the handshake succeeds: all but two of the reads (four with client authentication) begin with the byte of a change_cipher_spec record. Missing: a bound for a refused client certificate, and for the client, which accepts repeated CertificateRequests."
  },
  {
   "property": "C110",
   "status": "partial",
   "theorems": [
    "ATLS.C110_server_partial",
    "ATLS.C110_client_partial",
    "ATLS.C110_chacha"
   ],
   "note": "Two runs that differ in certificate, private key, authority, verify function, key log, clock and nonces send the same bytes (an alert may overtake buffered ones, then a beginning of them) and after that nothing but records sealed by the library's AEAD; the socket accepts all writes. Partial because the second half of the claim fails for ChaCha20-Poly1305: a message whose length plus one is a multiple of 64 leaves with its last 63 bytes in clear (C110_chacha). For AES-GCM the library's AEAD is that of the RFC (C12)."
  },
  {
   "property": "C111",
   "status": "partial",
   "theorems": [
    "ATLS.C111_false",
    "ATLS.C111_offers_partial",
    "ATLS.C111_every_run_partial"
   ],
   "note": "False as stated (C111_false: a ClientHello without supported_groups and signature_algorithms leads to a connection). Proved of the bytes received, for every completed handshake: the ClientHello has the legacy version 0x0303, lists the suite in use, which is one of the three, and contains, after well-formed extensions, a key_share whose first entry is the X25519 key with which the shared secret is computed. Not proved because not checked by the library: TLS 1.3 in supported_versions (C39), repeated extensions, the compression methods, trailing bytes."
  },
  {
   "property": "C112",
   "status": "proved",
   "theorems": [
    "ATLS.C112_independent",
    "ATLS.C112_any_order"
   ],
   "note": "For streams in any state, also without keys and after errors; the calls are those of one thread, one after the other. What arrives does not depend on what is sent in this statement: the peer's bytes are fixed."
  },
  {
   "property": "C113",
   "status": "partial",
   "theorems": [
    "ATLS.C113_false",
    "ATLS.C113_panics",
    "ATLS.C113_wrong",
    "ATLS.C113_encrypt_partial",
    "ATLS.C113_decrypt_partial",
    "ATLS.C113_gmac"
   ],
   "note": "False as stated: for IVs that are not 96 bits long the counter is added to the whole 128-bit block instead of its last 32 bits, so that there are IVs under which encryption panics (C113_panics) or gives another ciphertext than the standard's (C113_wrong). Proved for every IV under which the last 32 bits do not wrap around within the message, and for every IV when there is nothing to encrypt. TLS uses 96-bit IVs only (C12)."
  },
  {
   "property": "C114",
   "status": "partial",
   "theorems": [
    "ATLS.C114_false",
    "ATLS.C114_anything",
    "ATLS.C114_signed_partial",
    "ATLS.C114_none",
    "ATLS.C114_example"
   ],
   "note": "False as stated: every certificate in its validity period that the CA's key has signed is accepted, whatever its issuer and extensions say (C114_anything); the certificate of C114_example violates all four limits (C114_none). What holds: the accepted certificate, and so the limits in it, carries the CA's signature (C114_signed_partial)."
  },
  {
   "property": "C115",
   "status": "partial",
   "theorems": [
    "ATLS.C115_false",
    "ATLS.C115_always",
    "ATLS.C115_sha256_partial",
    "ATLS.C115_refused",
    "ATLS.C115_taken"
   ],
   "note": "False as stated: has_signed always hashes with SHA-256. Proved: a certificate is taken exactly if it is signed with SHA-256 (C115_always), so the property holds for certificates naming SHA-256; a proper SHA-384 certificate is refused (C115_refused) and one that names SHA-384 with a signature that is not valid for it is taken (C115_taken). For signed parts of at least 256 bytes (others: C68)."
  },
  {
   "property": "C116",
   "status": "proved",
   "theorems": [
    "ATLS.C116_replay",
    "ATLS.C116_fresh"
   ],
   "note": "For handshakes of the modelled accept, with a certificate of less than 2^24 bytes. The coincidences are spelled out in the conclusion (Coincidence, Spec/Replay.lean), not assumed away. How likely they are is not modelled. Replays to the client are not covered."
  },
  {
   "property": "C117",
   "status": "partial",
   "theorems": [
    "ATLS.C117_false",
    "ATLS.C117_count",
    "ATLS.C117_chacha_partial",
    "ATLS.C117_never_changed",
    "ATLS.C117_after_accept"
   ],
   "note": "False for AES-GCM: the key is never updated and no write is refused (C117_never_changed, C117_after_accept for the stream of every completed handshake). Proved for ChaCha20-Poly1305 (C117_chacha_partial), and for every suite that no more writes succeed than there are sequence numbers left (C117_count)."
  },
  {
   "property": "C118",
   "status": "partial",
   "theorems": [
    "ATLS.C118_false",
    "ATLS.C118_first_partial",
    "ATLS.C118_protected_partial",
    "ATLS.C118_ignored"
   ],
   "note": "False for the value: a record with any value is dropped and the handshake completes as without it (C118_ignored). Proved: one before the ClientHello (C118_first_partial) and a protected one right after the ClientHello (C118_protected_partial) are refused with unexpected_message, which is sent as an alert. Not covered: protected ones later in the handshake; for the client see C119."
  },
  {
   "property": "C119",
   "status": "partial",
   "theorems": [
    "ATLS.C119_false",
    "ATLS.C119_first_partial",
    "ATLS.C119_protected_partial",
    "ATLS.C119_ignored"
   ],
   "note": "False for the value: a record with any value is dropped and the handshake completes as without it (C119_ignored). Proved: one before the ServerHello (C119_first_partial) and a protected one right after the ServerHello (C119_protected_partial) are refused with unexpected_message, which is sent as an alert. Not covered: protected ones later in the handshake."
  },
  {
   "property": "C120",
   "status": "proved",
   "theorems": [
    "ATLS.C120_server_proof",
    "ATLS.C120_fresh",
    "ATLS.C120_client_proof"
   ],
   "note": "For both ends. The accidents (a collision of the transcript hash or of SHA-256, or one ECDSA signature accepted for two digests) are alternatives in the conclusion, not assumed away. C120_fresh: two clients with different random values do not accept the same signature message by the same key."
  },
  {
   "property": "C121",
   "status": "partial",
   "theorems": [
    "ATLS.C121_false",
    "ATLS.C121_any_type",
    "ATLS.C121_sealed_partial",
    "ATLS.C121_unknown"
   ],
   "note": "False of the code: tls_read does not look at the type in the header, so data sealed by the peer under a header with the type invalid (0), change_cipher_spec, alert or handshake is delivered, with any version and every suite (C121_any_type). What holds: whatever is returned was sealed under the peer's key with the very header that arrived, and that type is one of the five the library knows (C121_sealed_partial); any other type is refused before the key is used (C121_unknown). Records of C61 (ChaCha20-Poly1305 lengths) are an alternative in the conclusion."
  },
  {
   "property": "C122",
   "status": "partial",
   "theorems": [
    "ATLS.C122_false",
    "ATLS.C122_longest",
    "ATLS.C122_read_partial"
   ],
   "note": "False of the client: it has no limit on the length of a record, and completes the handshake with every conforming server also when that server pads a record to 65535 bytes (C122_longest). It holds for tls_read, whose buffer is smaller than the limit (C122_read_partial). The handshake of the server is not covered here; it reads into a buffer of 4096 bytes."
  },
  {
   "property": "C123",
   "status": "partial",
   "theorems": [
    "ATLS.C123_false",
    "ATLS.C123_ignored",
    "ATLS.C123_covered_partial"
   ],
   "note": "False of the code, which does not look at the message (a fixme in the source): for all contents of up to 900 bytes there is a server with which the client completes (C123_ignored). What holds: one such message came first, protected and covered by the server's signature and by both Finished messages (C123_covered_partial)."
  },
  {
   "property": "C124",
   "status": "partial",
   "theorems": [
    "ATLS.C124_false",
    "ATLS.C124_taken",
    "ATLS.C124_last_partial"
   ],
   "note": "False of the code: after a certificate request the client waits for the certificate in a state that takes another request. For every list of up to 1000 requests there is a server with which the client completes (C124_taken). What holds: requests come only between EncryptedExtensions and Certificate, and only the last one is answered, once (C124_last_partial)."
  },
  {
   "property": "C125",
   "status": "partial",
   "theorems": [
    "ATLS.C125_false",
    "ATLS.C125_ignored",
    "ATLS.C125_fixed_partial"
   ],
   "note": "False of the code, which parses the extensions of the request and drops the result: for every list of up to 400 algorithms there is a server that asks for these and gets an ecdsa_secp256r1_sha256 signature (C125_ignored). What holds: every CertificateVerify the client sends names that algorithm, so the claim holds with servers that ask for it (C125_fixed_partial)."
  },
  {
   "property": "C126",
   "status": "proved",
   "theorems": [
    "ATLS.C126_answered",
    "ATLS.C126_not_asked"
   ],
   "note": "For every client. That contexts do not repeat rests on the random source; what becomes of the drawn bytes is C108."
  },
  {
   "property": "C127",
   "status": "partial",
   "theorems": [
    "ATLS.C127_false",
    "ATLS.C127_ignored",
    "ATLS.C127_authentic_partial"
   ],
   "note": "False of the code, which reads one message from the record and ignores the rest: for all bytes (up to 3000) there is a client that appends them and gets a stream (C127_ignored). What holds: the bytes are from the client, under its handshake key, and the keys of the stream do not depend on them (C127_authentic_partial)."
  }
 ]
}