import Verif.Model.Record
/-
Model of `anothertls/src/utils/keylog.rs`. The file is the list of the chunks appended to it; opening it is assumed to succeed (the code
panics otherwise) and so is the write (the code prints a warning otherwise).
-/
namespace ATLS.Model
open ATLS

/-- utils/keylog.rs:12-15 `KeyLog`; `client_random` is kept as hexadecimal text. -/
structure KeyLog where
  filepath : Bytes
  clientRandom : Bytes
  deriving DecidableEq

namespace KeyLog

/-- utils/keylog.rs:18-24 `new`. -/
def new (filepath clientRandom : Bytes) : KeyLog := ⟨filepath, toHex clientRandom⟩

/-- One line without its end: label, client random, secret. -/
def entry (k : KeyLog) (label : String) (secret : Bytes) : Bytes :=
  ascii label ++ ascii " " ++ k.clientRandom ++ ascii " " ++ toHex secret

/-- utils/keylog.rs:40-53 `append_application_traffic_secrets`: what is appended to the file (`writeln!` ends it with a newline). -/
def applicationTrafficSecrets (k : KeyLog) (server client : Bytes) : Bytes :=
  k.entry "SERVER_TRAFFIC_SECRET_0" server ++ ascii "\n" ++ k.entry "CLIENT_TRAFFIC_SECRET_0" client ++ ascii "\n"

/-- utils/keylog.rs:54-67 `append_handshake_traffic_secrets`. -/
def handshakeTrafficSecrets (k : KeyLog) (server client : Bytes) : Bytes :=
  k.entry "SERVER_HANDSHAKE_TRAFFIC_SECRET" server ++ ascii "\n" ++ k.entry "CLIENT_HANDSHAKE_TRAFFIC_SECRET" client ++ ascii "\n"

/-- utils/keylog.rs:26-38 `append_from_record_payload_protection`. -/
def fromProtection (k : KeyLog) (p : RecordPayloadProtection) : Bytes :=
  match p.applicationKeys with
  | some a => k.applicationTrafficSecrets a.server.trafficSecret a.client.trafficSecret
  | none => k.handshakeTrafficSecrets p.handshakeKeys.server.trafficSecret p.handshakeKeys.client.trafficSecret

/-- utils/keylog.rs:69-80 `append_to_file`: the writes made on the file, which is opened for appending, so that each goes to its end at that time.
`writeln!(file, "{}", content)` on a `File`, which has no buffer, writes the content and then the line end. Simplified: opening and the writes succeed
and no write is cut short. -/
def appendToFile (content : Bytes) : List Bytes := [content, ascii "\n"]

/-- The writes that put a chunk into the file: a chunk is a content with its line end. -/
def writes (chunk : Bytes) : List Bytes := appendToFile chunk.dropLast

end KeyLog
end ATLS.Model
