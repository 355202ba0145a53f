import Verif.Proof.Hello
import Verif.Model.Hello
/-
C35, C36, C37, C64: the hello messages.
-/
namespace ATLS
open ATLS.Spec ATLS.Spec.Tls13 ATLS.Model ATLS.WireProof ATLS.HelloProof

/-! ### C35 -/

/-- The RFC 8446 message the client means to send: TLS 1.3 only, one X25519 share, ecdsa_secp256r1_sha256, groups secp256r1 and x25519. -/
def Spec.Tls13.clientOffer (random sid share : Bytes) (name : Option Bytes) : ClientHelloMsg :=
  ⟨random, sid, [0x1302, 0x1301, 0x1303],
    [.keyShare [(29, share)], .supportedVersions [0x0304], .other 13 [0x00#8, 0x02#8, 0x04#8, 0x03#8],
      .other 10 [0x00#8, 0x04#8, 0x00#8, 0x17#8, 0x00#8, 0x1d#8]] ++
    (match name with
      | some n => [.serverName n]
      | none => [])⟩

/-- C35 for server names satisfying `P`: the client's hello encodes, and parsing the encoding gives back the random, the session id, the
three suites, the key share (in wire order), TLS 1.3 and the server name. -/
def C35_for (P : Bytes → Prop) : Prop :=
  ∀ (random sid share : Bytes) (name : Option Bytes), random.length = 32 → sid.length = 32 → share.length = 32 →
    (∀ n, name = some n → utf8Valid n = true ∧ P n) →
    ∃ wire, (ClientHello.ofClient random sid share name).asBytes = .ok wire ∧
      ClientHello.fromRaw wire = .ok ⟨random, [.aes256GcmSha384, .aes128GcmSha256, .chacha20Poly1305Sha256], some sid,
        [.keyShare ⟨[⟨.x25519, share.reverse⟩]⟩, .supportedVersion true] ++
          (match name with
            | some n => [.serverName n]
            | none => [])⟩

/-- C35 as stated: every server name. -/
def C35_statement : Prop := C35_for fun _ => True

namespace HelloProof

theorem u16Bytes_shift (n : Nat) : [BitVec.ofNat 8 (n >>> 8), BitVec.ofNat 8 n] = beBytes 2 n := u16Bytes_eq n

theorem share_bytes (s : Bytes) (hs : s.length = 32) :
    KeyShare.clientAsBytes ⟨[⟨.x25519, s⟩]⟩ = .ok (ClientExt.keyShare [(29, s.reverse)]).bytes := by
  have h1 : (KeyShareEntry.mk .x25519 s).asBytes = .ok ([0x00#8, 0x1d#8, 0x00#8, 0x20#8] ++ s.reverse) := rfl
  unfold KeyShare.clientAsBytes
  simp only [List.mapM_cons, List.mapM_nil, h1]
  simp only [Res.ok_bind]
  show Res.ok _ = Res.ok _
  congr 1
  simp [ClientExt.bytes, ClientExt.typ, ClientExt.body, vec2, Tls13.share, hs, beBytes2]

theorem name_bytes (n : Bytes) : ServerName.serverAsBytes n = (ClientExt.serverName n).bytes := by
  unfold ServerName.serverAsBytes
  simp [ClientExt.bytes, ClientExt.typ, ClientExt.body, vec2, beBytes2, Nat.shiftRight_eq_div_pow]

/-- The first four extensions on the wire. -/
def fixedExts (share : Bytes) : List ClientExt :=
  [.keyShare [(29, share)], .supportedVersions [0x0304], .other 13 [0x00#8, 0x02#8, 0x04#8, 0x03#8],
      .other 10 [0x00#8, 0x04#8, 0x00#8, 0x17#8, 0x00#8, 0x1d#8]]

theorem ext_bytes_length (e : ClientExt) : e.bytes.length = 4 + e.body.length := by
  simp [ClientExt.bytes, vec2]; omega

theorem fixed_length (s : Bytes) (hs : s.length = 32) : ((fixedExts s).map ClientExt.bytes).flatten.length = 67 := by
  simp [fixedExts, ext_bytes_length, ClientExt.body, vec2, u16s, Tls13.share, hs]

theorem offer_length (random sid share : Bytes) (name : Option Bytes) (hs : share.length = 32) :
    ((clientOffer random sid share name).exts.map ClientExt.bytes).flatten.length =
      67 + (match name with | some n => 9 + n.length | none => 0) := by
  have := fixed_length share hs
  have he : (clientOffer random sid share name).exts = fixedExts share ++ (match name with
      | some n => [.serverName n]
      | none => []) := rfl
  rw [he, List.map_append, List.flatten_append, List.length_append, this]
  cases name with
  | none => rfl
  | some n => simp [ext_bytes_length, ClientExt.body, vec2]; omega

theorem suites3 : ([CipherSuite.aes256GcmSha384, .aes128GcmSha256, .chacha20Poly1305Sha256].map fun cs => u16Bytes cs.asU16).flatten =
    u16s [0x1302, 0x1301, 0x1303] := rfl

/-- The encoder produces the RFC layout, with the extension length modulo 2^16. -/
theorem ofClient_bytes (random sid share : Bytes) (name : Option Bytes) (hs : share.length = 32) :
    (ClientHello.ofClient random sid share name).asBytes =
      .ok (3#8 :: 3#8 :: (random ++ (BitVec.ofNat 8 sid.length :: (sid ++ (beBytes 2 (u16s [0x1302, 0x1301, 0x1303]).length ++
        (u16s [0x1302, 0x1301, 0x1303] ++ (1#8 :: 0#8 :: (beBytes 2 ((clientOffer random sid share.reverse name).exts.map ClientExt.bytes).flatten.length ++
          ((clientOffer random sid share.reverse name).exts.map ClientExt.bytes).flatten)))))))) := by
  have hm : (ClientHello.ofClient random sid share name).extensions.mapM ClientExtension.clientAsBytes =
      .ok ((clientOffer random sid share.reverse name).exts.map ClientExt.bytes) := by
    unfold ClientHello.ofClient clientOffer
    cases name with
    | none =>
      simp only [List.append_nil, List.mapM_cons, List.mapM_nil, ClientExtension.clientAsBytes, share_bytes share hs, Res.ok_bind]
      rfl
    | some n =>
      simp only [List.cons_append, List.nil_append, List.mapM_cons, List.mapM_nil, ClientExtension.clientAsBytes, share_bytes share hs, Res.ok_bind,
        name_bytes]
      rfl
  unfold ClientHello.asBytes
  rw [hm]
  simp only [Res.ok_bind]
  have hex : ∀ l : List Bytes, l ≠ [] → extensionsAsBytes l = beBytes 2 l.flatten.length ++ l.flatten := by
    intro l hl
    unfold extensionsAsBytes
    rw [if_neg hl, u16Bytes_shift]
  rw [hex _ (by simp [clientOffer])]
  have h1 : (ClientHello.ofClient random sid share name).cipherSuites = [CipherSuite.aes256GcmSha384, .aes128GcmSha256, .chacha20Poly1305Sha256] := rfl
  have h2 : (ClientHello.ofClient random sid share name).random = random := rfl
  have h3 : (ClientHello.ofClient random sid share name).legacySessionIdEcho = some sid := rfl
  rw [h1, h2, h3, suites3, u16Bytes_eq]
  congr 1
  simp [sessionIdBytes, u16s]

end HelloProof

/-- C35, proved part: server names of at most 65459 bytes (so that the extensions fit their 16-bit length). -/
theorem C35_client_hello_partial : C35_for fun n => n.length ≤ 65459 := by
  intro random sid share name hr hsid hshare hn
  have hrev : share.reverse.length = 32 := by simpa using hshare
  refine ⟨_, ofClient_bytes random sid share name hshare, ?_⟩
  have hlen := offer_length random sid share.reverse name hrev
  have hlt : ((clientOffer random sid share.reverse name).exts.map ClientExt.bytes).flatten.length < 65536 := by
    rw [hlen]
    cases name with
    | none => simp
    | some n => have := (hn n rfl).2; simp only; omega
  have := client_fromRaw_raw random sid [0x1302, 0x1301, 0x1303]
    ((clientOffer random sid share.reverse name).exts.map ClientExt.bytes).flatten [] hr (Or.inr hsid) (by simp) (by simp) hlt
    (by rw [hlen]; omega)
  rw [List.append_nil] at this
  rw [this, exts_parse _ ?_ hlt]
  · have hk : knownSuites [0x1302, 0x1301, 0x1303] = [.aes256GcmSha384, .aes128GcmSha256, .chacha20Poly1305Sha256] := by rfl
    have hne : sid ≠ [] := by rintro rfl; simp at hsid
    rw [hk, if_neg hne]
    have hsh : sharesResult [(29, share.reverse)] [] = .ok [⟨.x25519, share.reverse⟩] := by
      have h29 : NamedGroup.new 29 = some .x25519 := by decide
      simp only [sharesResult, h29]
      rw [if_neg (by omega)]
      rfl
    cases name with
    | none =>
      simp only [clientOffer, List.append_nil, extsResult, extResult]
      rw [if_neg (by simp), hsh]
      rfl
    | some n =>
      simp only [clientOffer, List.cons_append, List.nil_append, extsResult, extResult]
      rw [if_neg (by simp), hsh, if_pos (hn n rfl).1]
      rfl
  · intro e he
    simp only [clientOffer, List.mem_append, List.mem_cons, List.not_mem_nil, or_false] at he
    rcases he with ((rfl | rfl | rfl | rfl) | he)
    · intro s hs
      simp only [List.mem_cons, List.not_mem_nil, or_false] at hs
      subst hs
      exact ⟨by simp, by simp [hshare]⟩
    · exact ⟨by simp, by simp, by simp⟩
    · exact ⟨by simp, by simp, by simp, by simp⟩
    · exact ⟨by simp, by simp, by simp, by simp⟩
    · cases name with
      | none => simp at he
      | some n => simp only [List.mem_cons, List.not_mem_nil, or_false] at he; subst he; trivial

/-- The bytes the client sends are the RFC 8446 encoding of its offer. -/
theorem C35_rfc_encoding (random sid share : Bytes) (name : Option Bytes) (hs : share.length = 32) :
    (ClientHello.ofClient random sid share name).asBytes = .ok (clientOffer random sid share.reverse name).bytes := by
  rw [ofClient_bytes random sid share name hs]
  congr 1
  unfold ClientHelloMsg.bytes
  simp only [vec2, beBytes1, List.append_assoc, List.cons_append, List.nil_append, clientOffer]
  rfl

/-- `C35_client_hello_partial` applies to a hello with the server name `a.de`. -/
example : ∃ wire, (ClientHello.ofClient (zeros 32) (zeros 32) (zeros 32) (some (ascii "a.de"))).asBytes = .ok wire ∧
    ClientHello.fromRaw wire = .ok ⟨zeros 32, [.aes256GcmSha384, .aes128GcmSha256, .chacha20Poly1305Sha256], some (zeros 32),
      [.keyShare ⟨[⟨.x25519, (zeros 32).reverse⟩]⟩, .supportedVersion true, .serverName (ascii "a.de")]⟩ :=
  C35_client_hello_partial (zeros 32) (zeros 32) (zeros 32) (some (ascii "a.de")) rfl rfl rfl
    (by intro n hn; cases hn; exact ⟨by decide, by decide⟩)

theorem HelloProof.utf8_replicate (k : Nat) : utf8Valid (List.replicate k 0x61#8) = true := by
  induction k with
  | zero => rfl
  | succ k ih =>
    rw [List.replicate_succ]
    unfold utf8Valid
    rw [if_pos (by decide), ih]

/-- C35 is false as stated: with a server name of 65460 bytes the extension length wraps to 0 and every extension is lost. -/
theorem C35_false : ¬ C35_statement := by
  intro h
  obtain ⟨wire, hw, hp⟩ := h (zeros 32) (zeros 32) (zeros 32) (some (List.replicate 65460 0x61#8)) rfl rfl rfl
    (fun n hn => by cases hn; exact ⟨utf8_replicate _, trivial⟩)
  rw [ofClient_bytes _ _ _ _ rfl] at hw
  have hlen := offer_length (zeros 32) (zeros 32) (zeros 32).reverse (some (List.replicate 65460 0x61#8)) rfl
  obtain ⟨eb, heb⟩ : ∃ eb, eb = ((clientOffer (zeros 32) (zeros 32) (zeros 32).reverse (some (List.replicate 65460 0x61#8))).exts.map ClientExt.bytes).flatten := ⟨_, rfl⟩
  rw [← heb] at hw hlen
  have hlen2 : eb.length = 65536 := by
    simp only at hlen
    rw [List.length_replicate] at hlen
    exact hlen
  have hz : beBytes 2 eb.length = beBytes 2 ([] : Bytes).length := by rw [hlen2]; rfl
  rw [hz] at hw
  have hraw := client_fromRaw_raw (zeros 32) (zeros 32) [0x1302, 0x1301, 0x1303] [] eb rfl (Or.inr rfl) (by simp) (by simp) (by simp) (by rw [hlen2]; simp)
  cases hw
  rw [List.nil_append] at hraw
  rw [hraw] at hp
  have h0 : ClientExtension.fromClientHello [] = .ok [] := rfl
  rw [h0] at hp
  simp only [Res.ok_bind] at hp
  injection hp with hp
  injection hp with _ _ _ he
  exact absurd he.symm (List.cons_ne_nil _ _)

/-! ### C36 -/

/-- The extensions of a ServerHello: one key share extension per share, then the version. -/
def serverExtensions (shares : List Bytes) : List ServerExtension :=
  shares.map (fun s => .keyShare ⟨[⟨.x25519, s⟩]⟩) ++ [.supportedVersions true]

namespace HelloProof

/-- The same on the wire. -/
def serverExts (shares : List Bytes) : List ServerExt :=
  shares.map (fun s => .keyShare (29, s.reverse)) ++ [.supportedVersions 0x0304]

theorem sshare_bytes (s : Bytes) (hs : s.length = 32) :
    KeyShare.serverAsBytes ⟨[⟨.x25519, s⟩]⟩ = .ok (ServerExt.keyShare (29, s.reverse)).bytes := by
  have h1 : (KeyShareEntry.mk .x25519 s).asBytes = .ok ([0x00#8, 0x1d#8, 0x00#8, 0x20#8] ++ s.reverse) := rfl
  unfold KeyShare.serverAsBytes
  simp only [h1]
  simp only [Res.ok_bind]
  congr 1
  simp [ServerExt.bytes, ServerExt.typ, ServerExt.body, vec2, Tls13.share, hs, beBytes2]

theorem sexts_bytes (shares : List Bytes) (hs : ∀ s ∈ shares, s.length = 32) :
    (serverExtensions shares).mapM ServerExtension.serverAsBytes = .ok ((serverExts shares).map ServerExt.bytes) := by
  induction shares with
  | nil => rfl
  | cons s l ih =>
    have := ih (fun x hx => hs x (by simp [hx]))
    unfold serverExtensions serverExts at this ⊢
    simp only [List.map_cons, List.cons_append, List.mapM_cons, ServerExtension.serverAsBytes, sshare_bytes s (hs s (by simp)), Res.ok_bind, this]
    rfl

theorem sext_bytes_length (e : ServerExt) : e.bytes.length = 4 + e.body.length := by
  simp [ServerExt.bytes, vec2]; omega

theorem sexts_length (shares : List Bytes) (hs : ∀ s ∈ shares, s.length = 32) :
    ((serverExts shares).map ServerExt.bytes).flatten.length = 40 * shares.length + 6 := by
  induction shares with
  | nil => rfl
  | cons s l ih =>
    have := ih (fun x hx => hs x (by simp [hx]))
    have h0 : serverExts (s :: l) = .keyShare (29, s.reverse) :: serverExts l := rfl
    rw [h0, List.map_cons, List.flatten_cons, List.length_append, this, sext_bytes_length]
    have : (ServerExt.keyShare (29, s.reverse)).body.length = 36 := by
      simp [ServerExt.body, Tls13.share, vec2, hs s (by simp)]
    rw [this, List.length_cons]; omega

theorem sexts_result (shares : List Bytes) (hs : ∀ s ∈ shares, s.length = 32) : ∀ acc,
    sextsResult (serverExts shares) acc = .ok (acc ++ serverExtensions (shares.map List.reverse)) := by
  induction shares with
  | nil => intro acc; rfl
  | cons s l ih =>
    intro acc
    have h0 : serverExts (s :: l) = .keyShare (29, s.reverse) :: serverExts l := rfl
    have h29 : NamedGroup.new 29 = some .x25519 := by decide
    have hl := hs s (by simp)
    rw [h0, sextsResult]
    have h1 : sextResult (.keyShare (29, s.reverse)) = .ok [.keyShare ⟨[⟨.x25519, s.reverse⟩]⟩] := by
      simp only [sextResult, h29, List.length_reverse]
      rw [if_neg (by omega)]
    rw [h1]
    simp only [Res.ok_bind]
    rw [ih (fun x hx => hs x (by simp [hx]))]
    simp [serverExtensions]

theorem supported_true (shares : List Bytes) : ServerHello.tls13Supported (serverExtensions shares) = true := by
  unfold ServerHello.tls13Supported serverExtensions
  induction shares with
  | nil => rfl
  | cons s l ih => simpa [List.findSome?_cons] using ih

end HelloProof

/-- C36: a ServerHello with up to 1638 X25519 shares (the server answers each key_share extension of the ClientHello; `C36_reachable` in
`Verif/Props/Negotiation.lean` bounds their number) encodes to RFC 8446's message, and parsing the encoding gives back the random, the session id, the suite and
the shares (in wire order). -/
theorem C36_server_hello (random : Bytes) (sid : Option Bytes) (suite : CipherSuite) (shares : List Bytes)
    (hr : random.length = 32) (hsid : ∀ s, sid = some s → s.length = 32) (hsh : ∀ s ∈ shares, s.length = 32) (hn : shares.length ≤ 1638) :
    ∃ wire, (ServerHello.mk random sid suite (serverExtensions shares)).asBytes = .ok wire ∧
      wire = (ServerHelloMsg.mk random (sid.getD []) suite.asU16
        (shares.map (fun s => .keyShare (29, s.reverse)) ++ [.supportedVersions 0x0304])).bytes ∧ wire.length ≤ 40 * shares.length + 78 ∧
      ServerHello.fromRaw wire = .ok ⟨random, sid, suite, serverExtensions (shares.map List.reverse)⟩ := by
  have hlen := sexts_length shares hsh
  have hsuite : suite.asU16 < 65536 ∧ CipherSuite.new suite.asU16 = .ok suite := by cases suite <;> exact ⟨by decide, rfl⟩
  have hvalid : ∀ e ∈ serverExts shares, e.Valid := by
    intro e he
    unfold serverExts at he
    simp only [List.mem_append, List.mem_map, List.mem_cons, List.not_mem_nil, or_false] at he
    rcases he with ⟨s, hs, rfl⟩ | rfl
    · exact ⟨by simp, by simp [hsh s hs]⟩
    · show (0x0304 : Nat) < 65536
      decide
  obtain ⟨sidb, hsidb⟩ : ∃ b : Bytes, b = sid.getD [] := ⟨_, rfl⟩
  have hsl : sidb.length = 0 ∨ sidb.length = 32 := by
    cases sid with
    | none => left; rw [hsidb]; rfl
    | some s => right; rw [hsidb]; exact hsid s rfl
  refine ⟨(ServerHelloMsg.mk random sidb suite.asU16 (serverExts shares)).bytes, ?_, by rw [hsidb]; rfl, ?_, ?_⟩
  · unfold ServerHello.asBytes
    rw [sexts_bytes shares hsh]
    simp only [Res.ok_bind]
    have hex : ∀ l : List Bytes, l ≠ [] → extensionsAsBytes l = beBytes 2 l.flatten.length ++ l.flatten := by
      intro l hl
      unfold extensionsAsBytes
      rw [if_neg hl, u16Bytes_shift]
    rw [hex _ (by simp [serverExts]), u16Bytes_eq]
    congr 1
    unfold ServerHelloMsg.bytes vec2
    have : sessionIdBytes sid = beBytes 1 sidb.length ++ sidb := by
      cases sid with
      | none => rw [hsidb]; rfl
      | some s => rw [hsidb, beBytes1]; rfl
    rw [this]
    rfl
  · unfold ServerHelloMsg.bytes vec2
    simp only [List.length_append, beBytes_length, hlen, hr, List.length_singleton]
    omega
  · rw [server_fromRaw _ ⟨hr, by rcases hsl with h | h <;> simp only <;> omega, hsuite.1, hvalid, by simp only; omega⟩ hsl]
    simp only [hsuite.2, Res.ok_bind, sexts_result shares hsh, List.nil_append, supported_true, if_true]
    congr 2
    cases sid with
    | none => rw [hsidb]; rfl
    | some s =>
      rw [hsidb]
      have : s ≠ [] := by rintro rfl; have := hsid _ rfl; simp at this
      simp [this]

/-- `C36_server_hello` applies to the usual ServerHello with one share. -/
example : ∃ wire, (ServerHello.mk (zeros 32) (some (zeros 32)) .aes128GcmSha256 (serverExtensions [zeros 32])).asBytes = .ok wire ∧
    ServerHello.fromRaw wire = .ok ⟨zeros 32, some (zeros 32), .aes128GcmSha256, serverExtensions [(zeros 32).reverse]⟩ :=
  let ⟨wire, h1, _, _, h2⟩ :=
    C36_server_hello (zeros 32) (some (zeros 32)) .aes128GcmSha256 [zeros 32] rfl (by intro s h; cases h; rfl) (by simp [zeros]) (by simp)
  ⟨wire, h1, h2⟩

/-! ### C37 -/

/-- C37 as stated: every byte string. -/
def C37_statement : Prop :=
  ∀ buf : Bytes, ClientHello.fromRaw buf ≠ .panic ∧ ServerHello.fromRaw buf ≠ .panic

namespace HelloProof

theorem sharesResult_returns (l : List (Nat × Bytes)) : ∀ acc, sharesResult l acc ≠ .panic := by
  induction l with
  | nil => intro acc; simp [sharesResult]
  | cons s l ih =>
    intro acc
    obtain ⟨c, k⟩ := s
    rw [sharesResult]
    rcases NamedGroup.new c with _ | g
    · simp
    · simp only
      split_ifs
      · simp
      · exact ih _

theorem extsResult_returns (l : List ClientExt) : ∀ acc, extsResult l acc ≠ .panic := by
  induction l with
  | nil => intro acc; simp [extsResult]
  | cons e l ih =>
    intro acc
    rw [extsResult]
    have he : extResult e ≠ .panic := by
      cases e with
      | serverName n => simp only [extResult]; split_ifs <;> simp
      | supportedVersions vs => simp [extResult]
      | keyShare s =>
        simp only [extResult]
        split_ifs
        · simp
        · have := sharesResult_returns s []
          rcases h : sharesResult s [] with x | x | _
          · simp
          · simp
          · exact absurd h this
      | other t b => simp [extResult]
    rcases h : extResult e with x | x | _
    · exact ih _
    · simp
    · exact absurd h he

theorem sextsResult_returns (l : List ServerExt) : ∀ acc, sextsResult l acc ≠ .panic := by
  induction l with
  | nil => intro acc; simp [sextsResult]
  | cons e l ih =>
    intro acc
    rw [sextsResult]
    have he : sextResult e ≠ .panic := by
      cases e with
      | supportedVersions vs => simp [sextResult]
      | keyShare s => simp only [sextResult]; rcases NamedGroup.new s.1 <;> simp
      | other t b => simp [sextResult]
    rcases h : sextResult e with x | x | _
    · exact ih _
    · simp
    · exact absurd h he

end HelloProof

/-- C37, proved part: every RFC-encoded ClientHello and ServerHello whose session id is empty or 32 bytes long is parsed without a panic
(whatever its suites, names, groups, keys and unknown extensions). -/
theorem C37_returns_partial :
    (∀ h : ClientHelloMsg, h.Valid → (h.sessionId.length = 0 ∨ h.sessionId.length = 32) → ClientHello.fromRaw h.bytes ≠ .panic) ∧
    (∀ h : ServerHelloMsg, h.Valid → (h.sessionId.length = 0 ∨ h.sessionId.length = 32) → ServerHello.fromRaw h.bytes ≠ .panic) := by
  constructor
  · intro h hv hs
    rw [client_fromRaw h hv hs]
    have := extsResult_returns h.exts []
    rcases he : extsResult h.exts [] with x | x | _
    · simp
    · simp
    · exact absurd he this
  · intro h hv hs
    rw [server_fromRaw h hv hs]
    have hc : CipherSuite.new h.suite ≠ .panic := by
      unfold CipherSuite.new
      split_ifs <;> simp
    rcases hcs : CipherSuite.new h.suite with cs | e | _
    · simp only [Res.ok_bind]
      have := sextsResult_returns h.exts []
      rcases he : sextsResult h.exts [] with x | x | _
      · simp only [Res.ok_bind]
        split_ifs <;> simp
      · simp
      · exact absurd he this
    · simp
    · exact absurd hcs hc

/-- `C37_returns_partial` applies to a hello with a GREASE group, an unknown extension and a two-byte key. -/
example : (ClientHelloMsg.mk (zeros 32) [] [0x1301, 0x2a2a] [.keyShare [(0x2a2a, [0#8])], .other 0x6a6a [1#8, 2#8]]).Valid :=
  ⟨rfl, by simp, ⟨by simp, by simp, by simp⟩, by
    intro e he
    simp only [List.mem_cons, List.not_mem_nil, or_false] at he
    rcases he with rfl | rfl
    · intro s hs
      simp only [List.mem_cons, List.not_mem_nil, or_false] at hs
      subst hs
      exact ⟨by simp, by simp⟩
    · exact ⟨by simp, by simp, by simp, by simp⟩, by decide⟩

/-- A ClientHello of the minimal length whose session id length byte is 1. -/
def Spec.Tls13.shortHello : Bytes := [3#8, 3#8] ++ zeros 32 ++ [1#8] ++ zeros 10

/-- C37 is false as stated. -/
theorem C37_false : ¬ C37_statement := by
  intro h
  exact (h shortHello).1 (by decide +kernel)

namespace HelloProof

theorem shares_fuel : ∀ (fuel k : Nat) (rest : Bytes) (c l : Nat) (acc : List KeyShareEntry), rest.length < fuel →
    KeyShare.parseLoop (fuel + k) rest c l acc = KeyShare.parseLoop fuel rest c l acc := by
  intro fuel
  induction fuel with
  | zero => intro k rest c l acc h; omega
  | succ fuel ih =>
    intro k rest c l acc h
    rw [show fuel + 1 + k = (fuel + k) + 1 by omega, KeyShare.parseLoop, KeyShare.parseLoop]
    rcases hp : KeyShareEntry.parse rest with ⟨used, entry⟩ | e | _
    · simp only [Res.ok_bind]
      split_ifs with h1 h2
      · rfl
      · rfl
      · have hlen : 0 < rest.length := by
          rcases rest with _ | ⟨b, r⟩
          · exfalso
            revert hp
            have : KeyShareEntry.parse [] = .err .illegalParameter := rfl
            rw [this]
            intro hp
            cases hp
          · simp
        exact ih k _ _ _ _ (by rw [List.length_drop]; omega)
    · rfl
    · rfl

theorem client_fuel : ∀ (fuel k : Nat) (rest : Bytes) (acc : List ClientExtension), rest.length ≤ fuel →
    fromClientHelloLoop (fuel + k) rest acc = fromClientHelloLoop fuel rest acc := by
  intro fuel
  induction fuel with
  | zero =>
    intro k rest acc h
    have : rest = [] := List.eq_nil_of_length_eq_zero (by omega)
    subst this
    rcases k with _ | k
    · rfl
    · simp [fromClientHelloLoop]
  | succ fuel ih =>
    intro k rest acc h
    rw [show fuel + 1 + k = (fuel + k) + 1 by omega, fromClientHelloLoop, fromClientHelloLoop]
    split_ifs with h1
    · rfl
    · have hpos : 0 < rest.length := List.length_pos_iff.mpr h1
      have hd : ∀ n acc', fromClientHelloLoop (fuel + k) (rest.drop (4 + n)) acc' = fromClientHelloLoop fuel (rest.drop (4 + n)) acc' :=
        fun n acc' => ih k _ acc' (by rw [List.length_drop]; omega)
      have hd4 : ∀ acc', fromClientHelloLoop (fuel + k) (rest.drop 4) acc' = fromClientHelloLoop fuel (rest.drop 4) acc' :=
        fun acc' => ih k _ acc' (by rw [List.length_drop]; omega)
      simp only [hd, hd4]

theorem server_fuel : ∀ (fuel k : Nat) (rest : Bytes) (acc : List ServerExtension), rest.length ≤ fuel →
    fromServerHelloLoop (fuel + k) rest acc = fromServerHelloLoop fuel rest acc := by
  intro fuel
  induction fuel with
  | zero =>
    intro k rest acc h
    have : rest = [] := List.eq_nil_of_length_eq_zero (by omega)
    subst this
    rcases k with _ | k
    · rfl
    · simp [fromServerHelloLoop]
  | succ fuel ih =>
    intro k rest acc h
    rw [show fuel + 1 + k = (fuel + k) + 1 by omega, fromServerHelloLoop, fromServerHelloLoop]
    split_ifs with h1
    · rfl
    · have hpos : 0 < rest.length := List.length_pos_iff.mpr h1
      have hd : ∀ n acc', fromServerHelloLoop (fuel + k) (rest.drop (4 + n)) acc' = fromServerHelloLoop fuel (rest.drop (4 + n)) acc' :=
        fun n acc' => ih k _ acc' (by rw [List.length_drop]; omega)
      have hd4 : ∀ acc', fromServerHelloLoop (fuel + k) (rest.drop 4) acc' = fromServerHelloLoop fuel (rest.drop 4) acc' :=
        fun acc' => ih k _ acc' (by rw [List.length_drop]; omega)
      simp only [hd, hd4]

end HelloProof

/-- C37, termination: on every byte string the loops of the parsers end by themselves: giving them more iterations than there are bytes
changes nothing. -/
theorem C37_terminates (buf : Bytes) (k : Nat) :
    fromClientHelloLoop (buf.length + k) buf [] = ClientExtension.fromClientHello buf ∧
    fromServerHelloLoop (buf.length + k) buf [] = ServerExtension.fromServerHello buf ∧
    (∀ c l acc, KeyShare.parseLoop (buf.length + 1 + k) buf c l acc = KeyShare.parseLoop (buf.length + 1) buf c l acc) :=
  ⟨client_fuel _ k buf [] (Nat.le_refl _), server_fuel _ k buf [] (Nat.le_refl _),
    fun c l acc => shares_fuel _ k buf c l acc (by omega)⟩

/-! ### C64 -/

/-- The groups the library knows. -/
def Spec.Tls13.knownGroups : List (Nat × NamedGroup) :=
  [(0x0017, .secp256r1), (0x0018, .secp384r1), (0x0019, .secp521r1), (0x001D, .x25519), (0x001E, .x448), (0x0100, .ffdhe2048),
    (0x0101, .ffdhe3072), (0x0102, .ffdhe4096), (0x0103, .ffdhe6144), (0x0104, .ffdhe8192)]

/-- The shares of a key_share extension whose group is known. -/
def Spec.Tls13.usableShares (l : List (Nat × Bytes)) : List KeyShareEntry :=
  l.filterMap fun s => (knownGroups.lookup s.1).map fun g => ⟨g, s.2⟩

/-- What a server should see of an extension. -/
def Spec.Tls13.seen : ClientExt → List ClientExtension
  | .serverName n => [.serverName n]
  | .supportedVersions vs => [.supportedVersion (decide (0x0304 ∈ vs))]
  | .keyShare l => [.keyShare ⟨usableShares l⟩]
  | .other _ _ => []

/-- The cipher suites the library knows. -/
def Spec.Tls13.suiteCodes : List (Nat × CipherSuite) :=
  [(0x1301, .aes128GcmSha256), (0x1302, .aes256GcmSha384), (0x1303, .chacha20Poly1305Sha256), (0x00ff, .emptyRenegotiationInfoScsv)]

/-- C36: the code by which `C36_server_hello` names the suite is the one of RFC 8446 B.4. -/
theorem C36_suite_codes (cs : CipherSuite) : (cs.asU16, cs) ∈ Tls13.suiteCodes := by cases cs <;> decide

/-- C64 for hellos satisfying `P`: the server sees the random, the session id, the known suites in order and the extensions. -/
def C64_for (P : ClientHelloMsg → Prop) : Prop :=
  ∀ h : ClientHelloMsg, h.Valid → (∀ n, ClientExt.serverName n ∈ h.exts → utf8Valid n = true) → P h →
    ClientHello.fromRaw h.bytes = .ok ⟨h.random, h.suites.filterMap fun c => suiteCodes.lookup c,
      if h.sessionId = [] then none else some h.sessionId, (h.exts.map seen).flatten⟩

/-- C64 as stated: every RFC-encoded ClientHello. -/
def C64_statement : Prop := C64_for fun _ => True

namespace HelloProof

theorem group_lookup (c : Nat) : knownGroups.lookup c = NamedGroup.new c := by
  unfold knownGroups NamedGroup.new
  simp only [List.lookup, beq_eq_decide]
  split_ifs <;> simp [*]

theorem suite_lookup (l : List Nat) : knownSuites l = l.filterMap fun c => suiteCodes.lookup c := by
  unfold knownSuites
  congr 1
  funext c
  unfold suiteCodes CipherSuite.new
  simp only [List.lookup, beq_eq_decide]
  split_ifs <;> simp [*]

theorem shares_known (l : List (Nat × Bytes)) (h : ∀ s ∈ l, (∃ g, (s.1, g) ∈ knownGroups) ∧ 4 ≤ s.2.length) : ∀ acc,
    sharesResult l acc = .ok (acc ++ usableShares l) := by
  induction l with
  | nil => intro acc; simp [sharesResult, usableShares]
  | cons s l ih =>
    intro acc
    obtain ⟨c, k⟩ := s
    obtain ⟨⟨g, hg⟩, h4⟩ := h (c, k) (by simp)
    have hgn : NamedGroup.new c = some g := by
      simp only [knownGroups, List.mem_cons, List.not_mem_nil, or_false, Prod.mk.injEq] at hg
      rcases hg with h | h | h | h | h | h | h | h | h | h <;> (obtain ⟨h1, h2⟩ := h; rw [h1, h2]; decide)
    rw [sharesResult, hgn]
    simp only at h4 ⊢
    rw [if_neg (by omega), ih (fun x hx => h x (by simp [hx]))]
    simp [usableShares, group_lookup, hgn]

end HelloProof

/-- C64, proved part: the session id is empty or 32 bytes, and every key_share extension is non-empty and offers only groups the library
knows, with keys of at least 4 bytes. -/
theorem C64_understood_partial : C64_for fun h => (h.sessionId.length = 0 ∨ h.sessionId.length = 32) ∧
    ∀ l, ClientExt.keyShare l ∈ h.exts → l ≠ [] ∧ ∀ s ∈ l, (∃ g, (s.1, g) ∈ knownGroups) ∧ 4 ≤ s.2.length := by
  intro h hv hn ⟨hs, hk⟩
  rw [client_fromRaw h hv hs, suite_lookup]
  have : ∀ (es : List ClientExt) (acc : List ClientExtension), (∀ e ∈ es, e ∈ h.exts) → extsResult es acc = .ok (acc ++ (es.map seen).flatten) := by
    intro es
    induction es with
    | nil => intro acc _; simp [extsResult]
    | cons e es ih =>
      intro acc hmem
      have he := hmem e (by simp)
      have h1 : extResult e = .ok (seen e) := by
        cases e with
        | serverName n => simp only [extResult, seen]; rw [if_pos (hn n he)]
        | supportedVersions vs => rfl
        | keyShare l =>
          simp only [extResult, seen]
          rw [if_neg (hk l he).1, shares_known l (hk l he).2]
          rfl
        | other t b => rfl
      rw [extsResult, h1]
      simp only [Res.ok_bind]
      rw [ih _ (fun x hx => hmem x (by simp [hx]))]
      simp
  rw [this h.exts [] (fun e he => he)]
  rfl

/-- A valid ClientHello offering a GREASE group (RFC 8701) next to X25519. -/
def Spec.Tls13.greaseHello : ClientHelloMsg :=
  ⟨zeros 32, [], [0x1301], [.keyShare [(0x2a2a, [0#8]), (29, zeros 32)], .supportedVersions [0x0304]]⟩

/-- C64 is false as stated: a group the library does not know ends the handshake instead of being ignored. -/
theorem C64_false : ¬ C64_statement := by
  intro h
  have hv : greaseHello.Valid := ⟨rfl, by decide, ⟨by decide, by decide, by decide⟩, by
    intro e he
    simp only [greaseHello, List.mem_cons, List.not_mem_nil, or_false] at he
    rcases he with rfl | rfl
    · intro s hs
      simp only [List.mem_cons, List.not_mem_nil, or_false] at hs
      rcases hs with rfl | rfl
      · exact ⟨by simp, by simp⟩
      · exact ⟨by simp, by simp [zeros]⟩
    · exact ⟨by simp, by simp, by simp⟩, by decide⟩
  have := h greaseHello hv (by intro n hn; simp [greaseHello] at hn) trivial
  rw [client_fromRaw _ hv (Or.inl rfl)] at this
  have he : extsResult greaseHello.exts [] = .err .illegalParameter := by decide +kernel
  rw [he] at this
  cases this

/-- A valid ClientHello the guard of `C64_understood_partial` admits: two known groups, an unknown extension. -/
example : ClientHello.fromRaw (ClientHelloMsg.mk (zeros 32) [] [0x1301, 0x2a2a]
      [.keyShare [(23, zeros 65), (29, zeros 32)], .other 0x6a6a [1#8]]).bytes =
    .ok ⟨zeros 32, [.aes128GcmSha256], none, [.keyShare ⟨[⟨.secp256r1, zeros 65⟩, ⟨.x25519, zeros 32⟩]⟩]⟩ := by
  decide +kernel

end ATLS
