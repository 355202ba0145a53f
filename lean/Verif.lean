import Verif.Basic
import Verif.Model.Aes
import Verif.Model.Alert
import Verif.Model.Base64
import Verif.Model.Bytes
import Verif.Model.Certificate
import Verif.Model.ChaCha
import Verif.Model.Cipher
import Verif.Model.Client
import Verif.Model.Config
import Verif.Model.Der
import Verif.Model.Ec
import Verif.Model.ExampleClient
import Verif.Model.ExampleServer
import Verif.Model.Extensions
import Verif.Model.Files
import Verif.Model.Gcm
import Verif.Model.Handshake
import Verif.Model.Hello
import Verif.Model.Kdf
import Verif.Model.KeyExchange
import Verif.Model.KeyLog
import Verif.Model.KeySchedule
import Verif.Model.Rand
import Verif.Model.Record
import Verif.Model.Server
import Verif.Model.ServerHello
import Verif.Model.Sha
import Verif.Model.Step
import Verif.Model.Stream
import Verif.Model.Time
import Verif.Model.Utf8
import Verif.Model.X25519
import Verif.Model.X509
import Verif.Proof.Aes
import Verif.Proof.Base64
import Verif.Proof.Bytes
import Verif.Proof.Ccs
import Verif.Proof.ChaCha
import Verif.Proof.Chunks
import Verif.Proof.Cipher
import Verif.Proof.Clear
import Verif.Proof.Client
import Verif.Proof.ClientErr
import Verif.Proof.ClientFwd
import Verif.Proof.ClientPres
import Verif.Proof.ClientRel
import Verif.Proof.Deliver
import Verif.Proof.Der
import Verif.Proof.Early
import Verif.Proof.EarlyClient
import Verif.Proof.Ecdsa
import Verif.Proof.Flow
import Verif.Proof.Forward
import Verif.Proof.Gcm
import Verif.Proof.GcmIv
import Verif.Proof.Gf
import Verif.Proof.Hello
import Verif.Proof.Kdf
import Verif.Proof.KeySchedule
import Verif.Proof.Ladder
import Verif.Proof.LadderNat
import Verif.Proof.Leftover
import Verif.Proof.Limbs
import Verif.Proof.ModArith
import Verif.Proof.Montgomery
import Verif.Proof.Nonce
import Verif.Proof.Outcome
import Verif.Proof.P256
import Verif.Proof.P256Model
import Verif.Proof.P256Order
import Verif.Proof.Pair
import Verif.Proof.Pieces
import Verif.Proof.Pres
import Verif.Proof.Primes
import Verif.Proof.Record
import Verif.Proof.Rel
import Verif.Proof.Rfc
import Verif.Proof.Server
import Verif.Proof.ServerFwd
import Verif.Proof.ServerPres
import Verif.Proof.ServerRel
import Verif.Proof.Session
import Verif.Proof.Sha
import Verif.Proof.Step
import Verif.Proof.Utf8
import Verif.Proof.Weierstrass
import Verif.Proof.Wire
import Verif.Proof.Wraps
import Verif.Proof.X25519
import Verif.Proof.X509
import Verif.Props.Agreement
import Verif.Props.AgreementExample
import Verif.Props.AgreementKeys
import Verif.Props.Alerts
import Verif.Props.Answer
import Verif.Props.AskedScheme
import Verif.Props.Asking
import Verif.Props.Boundary
import Verif.Props.Bounded
import Verif.Props.BrokenWrites
import Verif.Props.Certificate
import Verif.Props.Channel
import Verif.Props.Cipher
import Verif.Props.Clear
import Verif.Props.Client
import Verif.Props.ClientAlerts
import Verif.Props.ClientAuth
import Verif.Props.ClientComplete
import Verif.Props.ClientDefs
import Verif.Props.ClientRefused
import Verif.Props.ClientTrust
import Verif.Props.Closing
import Verif.Props.Codec
import Verif.Props.Config
import Verif.Props.Crash
import Verif.Props.Curves
import Verif.Props.Cuts
import Verif.Props.Delivery
import Verif.Props.DeliveryDefs
import Verif.Props.Der
import Verif.Props.DerStrict
import Verif.Props.Duplex
import Verif.Props.Early
import Verif.Props.EarlyClient
import Verif.Props.Ec
import Verif.Props.EncryptedExtensions
import Verif.Props.ExampleAuth
import Verif.Props.ExampleClient
import Verif.Props.ExampleServer
import Verif.Props.Examples
import Verif.Props.Files
import Verif.Props.FilesExample
import Verif.Props.Forbidden
import Verif.Props.ForbiddenClient
import Verif.Props.GcmIv
import Verif.Props.Handshake
import Verif.Props.Hash
import Verif.Props.Hello
import Verif.Props.Hex
import Verif.Props.Instances
import Verif.Props.Joined
import Verif.Props.Joint
import Verif.Props.KeyLimit
import Verif.Props.KeyLog
import Verif.Props.Limits
import Verif.Props.LongRecord
import Verif.Props.Negotiation
import Verif.Props.Numbers
import Verif.Props.Offer
import Verif.Props.OuterType
import Verif.Props.Pair
import Verif.Props.PairDefs
import Verif.Props.PairExample
import Verif.Props.PairFalse
import Verif.Props.Possession
import Verif.Props.PostHandshake
import Verif.Props.Random
import Verif.Props.Reason
import Verif.Props.ReasonExample
import Verif.Props.Record
import Verif.Props.RecordOpen
import Verif.Props.Refused
import Verif.Props.RefusedExample
import Verif.Props.Replay
import Verif.Props.RepoCerts
import Verif.Props.RepoFiles
import Verif.Props.Retry
import Verif.Props.RfcClient
import Verif.Props.RfcClientExample
import Verif.Props.RfcServer
import Verif.Props.RfcServerExample
import Verif.Props.SecondRequest
import Verif.Props.Server
import Verif.Props.ServerComplete
import Verif.Props.ServerDefs
import Verif.Props.Session
import Verif.Props.SharedLog
import Verif.Props.Shipped
import Verif.Props.SigHash
import Verif.Props.Split
import Verif.Props.Stream
import Verif.Props.StreamRead
import Verif.Props.Tampering
import Verif.Props.Terminates
import Verif.Props.Time
import Verif.Props.Transport
import Verif.Props.TransportDefs
import Verif.Props.Truncated
import Verif.Props.TruncatedCrash
import Verif.Props.Writing
import Verif.Props.X25519
import Verif.Props.X509
import Verif.Spec.Aes
import Verif.Spec.Agreement
import Verif.Spec.Answer
import Verif.Spec.AppData
import Verif.Spec.AskedScheme
import Verif.Spec.Asking
import Verif.Spec.Base64
import Verif.Spec.Calls
import Verif.Spec.Certificate
import Verif.Spec.ChaCha
import Verif.Spec.Channel
import Verif.Spec.Common
import Verif.Spec.Curve25519
import Verif.Spec.Delivery
import Verif.Spec.Der
import Verif.Spec.Ecdsa
import Verif.Spec.EncryptedExtensions
import Verif.Spec.Forbidden
import Verif.Spec.Gcm
import Verif.Spec.GcmIv
import Verif.Spec.Handshake
import Verif.Spec.Hello
import Verif.Spec.Hex
import Verif.Spec.Interleave
import Verif.Spec.Kdf
import Verif.Spec.KeyFile
import Verif.Spec.KeyLimit
import Verif.Spec.KeySchedule
import Verif.Spec.Limits
import Verif.Spec.LongRecord
import Verif.Spec.Offer
import Verif.Spec.OuterType
import Verif.Spec.P256
import Verif.Spec.Peer
import Verif.Spec.Pem
import Verif.Spec.Pieces
import Verif.Spec.Possession
import Verif.Spec.PostHandshake
import Verif.Spec.Record
import Verif.Spec.Recursion
import Verif.Spec.Replay
import Verif.Spec.Retry
import Verif.Spec.Sealed
import Verif.Spec.SecondRequest
import Verif.Spec.Sha2
import Verif.Spec.SigAlg
import Verif.Spec.Tampering
import Verif.Spec.Time
import Verif.Spec.Utf8
import Verif.Spec.X25519
import Verif.Spec.X509
