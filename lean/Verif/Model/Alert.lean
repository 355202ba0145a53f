import Verif.Basic
/-
Model of `anothertls/src/net/alert.rs`.
-/
namespace ATLS.Model
open ATLS

/-- net/alert.rs:18-45 `TlsError`. -/
inductive TlsError where
  | closeNotify
  | unexpectedMessage
  | badRecordMac
  | handshakeFailure
  | badCertificate
  | unsupportedCertificate
  | certificateRevoked
  | certificateExpired
  | certificateUnknown
  | illegalParameter
  | unknownCa
  | accessDenied
  | decryptError
  | decodeError
  | protocolVersion
  | insufficientSecurity
  | internalError
  | missingExtension
  | unrecognizedName
  | certificateRequired
  | notOfficial
  | gotAlert (code : Byte)
  | brokenPipe
  deriving DecidableEq, Repr

/-- net/alert.rs:6-9 `AlertLevel` (as byte). -/
inductive AlertLevel where
  | warning
  | fatal
  deriving DecidableEq, Repr

/-- net/alert.rs:6-9, net/stream.rs:79: `level as u8` -/
def AlertLevel.code : AlertLevel → Byte
  | .warning => 1#8
  | .fatal => 2#8

/-- net/alert.rs:11-16 `AlertLevel::get_from_error`. -/
def AlertLevel.getFromError : TlsError → AlertLevel
  | .closeNotify => .warning
  | _ => .fatal

/-- The discriminants of net/alert.rs:20-45, which order the variants under the derived `PartialOrd`. -/
def TlsError.discr : TlsError → Nat
  | .closeNotify => 0
  | .unexpectedMessage => 10
  | .badRecordMac => 20
  | .handshakeFailure => 40
  | .badCertificate => 42
  | .unsupportedCertificate => 43
  | .certificateRevoked => 44
  | .certificateExpired => 45
  | .certificateUnknown => 46
  | .illegalParameter => 47
  | .unknownCa => 48
  | .accessDenied => 49
  | .decryptError => 50
  | .decodeError => 51
  | .protocolVersion => 70
  | .insufficientSecurity => 71
  | .internalError => 80
  | .missingExtension => 109
  | .unrecognizedName => 112
  | .certificateRequired => 116
  | .notOfficial => 250
  | .gotAlert _ => 253
  | .brokenPipe => 254

/-- net/alert.rs:48-74 `TlsError::new`. -/
def TlsError.new (code : Byte) : TlsError :=
  match code.toNat with
  | 0 => .closeNotify
  | 10 => .unexpectedMessage
  | 40 => .handshakeFailure
  | 42 => .badCertificate
  | 43 => .unsupportedCertificate
  | 44 => .certificateRevoked
  | 45 => .certificateExpired
  | 46 => .certificateUnknown
  | 47 => .illegalParameter
  | 48 => .unknownCa
  | 49 => .accessDenied
  | 50 => .decryptError
  | 51 => .decodeError
  | 70 => .protocolVersion
  | 71 => .insufficientSecurity
  | 80 => .internalError
  | 109 => .missingExtension
  | 112 => .unrecognizedName
  | 116 => .certificateRequired
  | 250 => .notOfficial
  | 253 => .notOfficial
  | 254 => .brokenPipe
  | _ => .decodeError

/-- net/alert.rs:76-102 `TlsError::as_u8`. -/
def TlsError.asU8 : TlsError → Byte
  | .closeNotify => 0#8
  | .unexpectedMessage => 10#8
  | .handshakeFailure => 40#8
  | .badCertificate => 42#8
  | .unsupportedCertificate => 43#8
  | .certificateRevoked => 44#8
  | .certificateExpired => 45#8
  | .certificateUnknown => 46#8
  | .illegalParameter => 47#8
  | .unknownCa => 48#8
  | .accessDenied => 49#8
  | .decryptError => 50#8
  | .decodeError => 51#8
  | .protocolVersion => 70#8
  | .insufficientSecurity => 71#8
  | .internalError => 80#8
  | .missingExtension => 109#8
  | .unrecognizedName => 112#8
  | .certificateRequired => 116#8
  | .gotAlert a => a
  | .brokenPipe => 254#8
  | _ => 0#8

end ATLS.Model
