import Verif.Model.Record
/-
Model of `anothertls/src/net/stream.rs`.
-/
namespace ATLS.Model
open ATLS

/-- net/stream.rs:14-18: The TCP socket (`std::net::TcpStream`, not part of the repository). `incoming`: the data in arrival order, cut where TCP delivers it; a read
returns (part of) the first piece; an empty piece or the end of the list is "peer closed or read error". `failures`: outcome of the following
writes: `none` succeeds, `some k` fails after `k` bytes went out; when the list is used up all writes succeed. `written`: what went out. -/
structure Socket where
  incoming : List Bytes
  failures : List (Option Nat)
  written : Bytes
  deriving DecidableEq

/-- net/stream.rs:50, 89, 145: `write_all(buf)`: `true` for `Ok`. -/
def Socket.writeAll (s : Socket) (b : Bytes) : Bool × Socket :=
  if b = [] then (true, s)
  else match s.failures with
    | [] => (true, { s with written := s.written ++ b })
    | none :: fs => (true, { s with written := s.written ++ b, failures := fs })
    | some k :: fs => (false, { s with written := s.written ++ b.take k, failures := fs })

/-- net/stream.rs:63: `write(buf)`, a single system call: it may take only a part of the bytes and still succeed. `some 0` is a failure here. -/
def Socket.write (s : Socket) (b : Bytes) : Bool × Socket :=
  match s.failures with
  | [] => (true, { s with written := s.written ++ b })
  | none :: fs => (true, { s with written := s.written ++ b, failures := fs })
  | some 0 :: fs => (false, { s with failures := fs })
  | some (k + 1) :: fs => (true, { s with written := s.written ++ b.take (k + 1), failures := fs })

/-- net/stream.rs:14-18 `TlsStream`. -/
structure TlsStream where
  stream : Socket
  protection : Option RecordPayloadProtection
  buffer : Bytes
  deriving DecidableEq

namespace TlsStream

/-- net/stream.rs:21-27 `TlsStream::new`. -/
def new (s : Socket) : TlsStream := { stream := s, protection := none, buffer := [] }

/-- net/stream.rs:49-55 `flush`: on an error the buffer is kept. -/
def flush (s : TlsStream) : Res TlsError Unit × TlsStream :=
  match s.stream.writeAll s.buffer with
  | (true, sock) => (.ok (), { s with stream := sock, buffer := [] })
  | (false, sock) => (.err .brokenPipe, { s with stream := sock })

/-- net/stream.rs:35-39 and 83-87: the record's bytes, encrypted if protection is installed. -/
def protectRecord (s : TlsStream) (record : Record) : Res TlsError Bytes × TlsStream :=
  match s.protection with
  | some p =>
    match p.encrypt record with
    | (r, p') => (r, { s with protection := some p' })
  | none => (.ok record.asBytes, s)

/-- net/stream.rs:32-47 `write_record`. -/
def writeRecord (s : TlsStream) (t : RecordType) (data : Bytes) : Res TlsError Unit × TlsStream :=
  match s.protectRecord (Record.new t data) with
  | (.ok b, s) =>
    let s := { s with buffer := s.buffer ++ b }
    if s.buffer.length ≥ 2048 then s.flush else (.ok (), s)
  | (.err e, s) => (.err e, s)
  | (.panic, s) => (.panic, s)

/-- net/stream.rs:57-59 `set_protection`. -/
def setProtection (s : TlsStream) (p : Option RecordPayloadProtection) : TlsStream := { s with protection := p }

/-- net/stream.rs:62-67 `tcp_write`; the number of bytes taken is not looked at by the caller. -/
def tcpWrite (s : TlsStream) (b : Bytes) : Res TlsError Unit × TlsStream :=
  match s.stream.write b with
  | (true, sock) => (.ok (), { s with stream := sock })
  | (false, sock) => (.err .brokenPipe, { s with stream := sock })

/-- net/stream.rs:70-75 `tcp_read` into a buffer of `cap` bytes: the bytes read. -/
def tcpRead (s : TlsStream) (cap : Nat) : Res TlsError Bytes × TlsStream :=
  match s.stream.incoming with
  | [] => (.err .brokenPipe, s)
  | c :: cs =>
    let got := c.take cap
    let rest := c.drop cap
    let s' := { s with stream := { s.stream with incoming := if rest = [] then cs else rest :: cs } }
    if got = [] then (.err .brokenPipe, s') else (.ok got, s')

/-- net/stream.rs:78-94 `write_alert`: goes to the socket directly, past the buffer. -/
def writeAlert (s : TlsStream) (err : TlsError) : Res TlsError Unit × TlsStream :=
  match s.protectRecord (Record.new .alert [(AlertLevel.getFromError err).code, err.asU8]) with
  | (.ok raw, s) =>
    match s.stream.writeAll raw with
    | (true, sock) => (.ok (), { s with stream := sock })
    | (false, sock) => (.err .brokenPipe, { s with stream := sock })
  | (.err e, s) => (.err e, s)
  | (.panic, s) => (.panic, s)

/-- net/stream.rs:122-130: copy into the caller's buffer of `bufLen` bytes; `todo!()` if it is too small. The result is the filled part of the
buffer. -/
def deliver (record : Record) (bufLen : Nat) : Res TlsError Bytes :=
  if record.len > bufLen then .panic else .ok record.fraqment

/-- net/stream.rs:97-131 `tls_read` with a caller's buffer of `bufLen` bytes. One TCP read of at most 4096 bytes, of which the first record is
used and the rest is dropped. -/
def tlsRead (s : TlsStream) (bufLen : Nat) : Res TlsError Bytes × TlsStream :=
  match s.tcpRead 4096 with
  | (.err e, s) => (.err e, s)
  | (.panic, s) => (.panic, s)
  | (.ok rx, s) =>
    match Record.fromRaw rx with
    | .err e => (.err e, s)
    | .panic => (.panic, s)
    | .ok (_, record) =>
      if record.len ≠ record.fraqment.length then (.panic, s)
      else match s.protection with
        | some p =>
          match p.decrypt record with
          | (.err e, p') => (.err e, { s with protection := some p' })
          | (.panic, p') => (.panic, { s with protection := some p' })
          | (.ok (t, data), p') =>
            let s := { s with protection := some p' }
            if t ≠ .applicationData then (.err .unexpectedMessage, s)
            else (deliver (Record.new t data) bufLen, s)
        | none =>
          if record.contentType ≠ .handshake then (.err .unexpectedMessage, s)
          else (deliver record bufLen, s)

/-- net/stream.rs:134-150 `tls_write`. -/
def tlsWrite (s : TlsStream) (src : Bytes) : Res TlsError Unit × TlsStream :=
  match s.protection with
  | none => (.err .internalError, s)
  | some p =>
    match p.encrypt (Record.new .applicationData src) with
    | (.err e, p') => (.err e, { s with protection := some p' })
    | (.panic, p') => (.panic, { s with protection := some p' })
    | (.ok record, p') =>
      match s.stream.writeAll record with
      | (true, sock) => (.ok (), { s with protection := some p', stream := sock })
      | (false, sock) => (.err .brokenPipe, { s with protection := some p', stream := sock })

end TlsStream
end ATLS.Model
