import Verif.Spec.Handshake
import Verif.Model.Stream
import Verif.Model.Handshake
import Verif.Model.KeyLog
import Verif.Proof.Step
import Verif.Props.RecordOpen
import Verif.Props.StreamRead
import Verif.Props.Hash
import Verif.Props.X25519
import Verif.Props.Handshake
/-
Shared by the server and the client state machine: transcripts, buffered writes, protected records, keys of a session.
-/
namespace ATLS.FlowProof
open ATLS ATLS.Model ATLS.Spec RecProof KsProof

/-! ### Transcripts -/

/-- A transcript hash that was fed `m`. -/
def ts (t : HashType) (m : Bytes) : TsHash := (TsHash.new t).update m

theorem ts_update (t : HashType) (m b : Bytes) : (ts t m).update b = ts t (m ++ b) := by
  unfold ts
  cases t <;> simp only [TsHash.new, TsHash.update, ShaProof.update_append]

theorem ts_new (t : HashType) (b : Bytes) : (TsHash.new t).update b = ts t b := rfl

theorem ts_type (t : HashType) (m : Bytes) : (ts t m).getType = t := by cases t <;> rfl

theorem ts_finalize (t : HashType) (m : Bytes) (h : m.length < 2 ^ 53) : (ts t m).finalize = (rfcHash t).H m := by
  have := runHash_eq t [.digest] m (by simpa [fed] using h)
  simp only [runHash, expectedDigests] at this
  have h2 := List.head_eq_of_cons_eq this
  show ((TsHash.new t).update m).finalize = _
  rw [h2]
  cases t <;> rfl

theorem ts_finalize_length (x : TsHash) : x.finalize.length = (rfcHash x.getType).out := by cases x <;> simp [TsHash.finalize] <;> rfl

/-! ### Writing -/

/-- What was written, including what is still buffered. -/
def out (s : TlsStream) : Bytes := s.stream.written ++ s.buffer

theorem flush_ok {s s' : TlsStream} (h : s.flush = (.ok (), s')) :
    out s' = out s ∧ s'.buffer = [] ∧ s'.protection = s.protection ∧ s'.stream.incoming = s.stream.incoming := by
  unfold TlsStream.flush Socket.writeAll at h
  by_cases hb : s.buffer = []
  · rw [if_pos hb] at h
    cases h
    refine ⟨?_, rfl, rfl, rfl⟩
    simp [out, hb]
  · rw [if_neg hb] at h
    cases hf : s.stream.failures with
    | nil => rw [hf] at h; cases h; exact ⟨by simp [out], rfl, rfl, rfl⟩
    | cons f fs =>
      rw [hf] at h
      cases f with
      | none => cases h; exact ⟨by simp [out], rfl, rfl, rfl⟩
      | some k => cases h

theorem write_plain {s s' : TlsStream} {t : RecordType} {data : Bytes} (hp : s.protection = none)
    (h : s.writeRecord t data = (.ok (), s')) :
    out s' = out s ++ (Record.new t data).asBytes ∧ s'.protection = none ∧ s'.stream.incoming = s.stream.incoming := by
  unfold TlsStream.writeRecord TlsStream.protectRecord at h
  rw [hp] at h
  simp only [] at h
  split_ifs at h with hl
  · obtain ⟨h1, h2, h3, h4⟩ := flush_ok h
    refine ⟨?_, by rw [h3]; exact hp, h4⟩
    rw [h1]
    simp [out]
  · cases h
    exact ⟨by simp [out], hp, rfl⟩

theorem write_prot {s s' : TlsStream} {p : RecordPayloadProtection} {t : RecordType} {data : Bytes} (hp : s.protection = some p)
    (h : s.writeRecord t data = (.ok (), s')) :
    ∃ wire p', p.encrypt (Record.new t data) = (.ok wire, p') ∧ out s' = out s ++ wire ∧ s'.protection = some p' ∧
      s'.stream.incoming = s.stream.incoming := by
  unfold TlsStream.writeRecord TlsStream.protectRecord at h
  rw [hp] at h
  simp only [] at h
  rcases he : p.encrypt (Record.new t data) with ⟨r, p'⟩
  rw [he] at h
  cases r with
  | err e => cases h
  | panic => cases h
  | ok wire =>
    simp only [] at h
    refine ⟨wire, p', rfl, ?_⟩
    split_ifs at h with hl
    · obtain ⟨h1, h2, h3, h4⟩ := flush_ok h
      refine ⟨?_, by rw [h3], h4⟩
      rw [h1]
      simp [out]
    · cases h
      exact ⟨by simp [out], rfl, rfl⟩

theorem read_ok {s s' : TlsStream} {cap : Nat} {rx : Bytes} (h : s.tcpRead cap = (.ok rx, s')) :
    s.stream.incoming.flatten = rx ++ s'.stream.incoming.flatten ∧ rx.length ≤ cap ∧ rx ≠ [] ∧ s'.protection = s.protection ∧
      s'.buffer = s.buffer ∧ s'.stream.written = s.stream.written := by
  unfold TlsStream.tcpRead at h
  cases hi : s.stream.incoming with
  | nil => rw [hi] at h; cases h
  | cons c cs =>
    rw [hi] at h
    simp only [] at h
    by_cases hg : c.take cap = []
    · rw [if_pos hg] at h; cases h
    rw [if_neg hg] at h
    have h1 := (Prod.mk.inj h).1
    have h2 := (Prod.mk.inj h).2
    have h1 := Res.ok.inj h1
    subst h1 h2
    refine ⟨?_, by simp, hg, rfl, rfl, rfl⟩
    simp only [List.flatten_cons]
    split_ifs with hr
    · conv_lhs => rw [← List.take_append_drop cap c, hr, List.append_nil]
    · rw [List.flatten_cons, ← List.append_assoc, List.take_append_drop]

/-! ### Records -/

/-- The library's AEAD as a partial function. -/
def aead (c : Cipher) : Tls13.Seal := fun key nonce plaintext aad =>
  match c.encrypt key nonce plaintext aad with
  | .ok x => some x
  | _ => none

theorem isRecord_new (t : RecordType) (f : Bytes) (h : f.length < 2 ^ 16) : Tls13.IsRecord t.code f (Record.new t f).asBytes := by
  refine ⟨3#8, 3#8, h, ?_⟩
  simp [Record.asBytes, Record.new, RecProof.beBytes2]

theorem fromRaw_isRecord {buf : Bytes} {n : Nat} {r : Record} (h : Record.fromRaw buf = .ok (n, r)) :
    Tls13.IsRecord r.contentType.code r.fraqment (buf.take n) ∧ buf.take n = r.header ++ r.fraqment ∧ r.header.length = 5 ∧
      r.header.drop 3 = beBytes 2 r.fraqment.length ∧
      r.fraqment.length < 2 ^ 16 ∧ 5 ≤ n ∧ n ≤ buf.length := by
  obtain ⟨b0, b1, b2, b3, b4, rest, h1, h2, h3, h4, h5, h6⟩ := fromRaw_inv buf n r h
  have hl : r.fraqment.length < 2 ^ 16 := by rw [h5, h4]; have := b3.isLt; have := b4.isLt; omega
  have hb : beBytes 2 r.fraqment.length = [b3, b4] := by
    rw [h5, h4, RecProof.beBytes2]
    have e1 : (b3.toNat * 256 + b4.toNat) / 256 = b3.toNat := by have := b4.isLt; omega
    have e2 : BitVec.ofNat 8 (b3.toNat * 256 + b4.toNat) = b4 := by
      apply BitVec.eq_of_toNat_eq
      rw [BitVec.toNat_ofNat]
      have := b4.isLt
      omega
    rw [e1, e2, BitVec.ofNat_toNat, BitVec.setWidth_eq]
  have hc : r.contentType.code = b0 := by
    unfold RecordType.new at h3
    split_ifs at h3 with g1 g2 g3 g4 g5
    · rw [← Res.ok.inj h3, g1]; rfl
    · rw [← Res.ok.inj h3, g2]; rfl
    · rw [← Res.ok.inj h3, g3]; rfl
    · rw [← Res.ok.inj h3, g4]; rfl
    · rw [← Res.ok.inj h3, g5]; rfl
  have ht : buf.take n = r.header ++ r.fraqment := by
    rw [h1, h6, ← h5]
    rw [List.take_left' (by simp [h2]; omega)]
  refine ⟨⟨b1, b2, hl, ?_⟩, ht, by rw [h2]; rfl, by rw [h2, hb]; rfl, hl, by omega, ?_⟩
  · rw [ht, hb, hc, h2]; rfl
  · rw [h1, h6]; simp [h2]; omega

/-! ### Keys -/

/-- What the hellos of a connection determine, in the library's terms. -/
structure Params where
  t : HashType
  cs : CipherSuite
  c : Cipher
  ecdhe : Bytes
  hellos : Bytes

/-- The same in RFC 8446's terms. -/
def Params.sess (x : Params) : Tls13.Session := ⟨rfcHash x.t, x.cs.getKeyAndIvLen.1, x.ecdhe, x.hellos⟩

/-- The key schedule of a session. -/
def Params.ks (x : Params) : KeySchedule :=
  ⟨⟨x.t, x.sess.secret .client⟩, ⟨x.t, x.sess.secret .server⟩, ⟨x.t, Tls13.masterSecret (rfcHash x.t) x.ecdhe⟩⟩

/-- A handshake key of a session with `n` records done. -/
def Params.hsKey (x : Params) (side : Tls13.Side) (n : Nat) : Key :=
  { rfcKey x.t x.cs (x.sess.secret side) with sequenceNumber := BitVec.ofNat 64 n }

/-- The protection holds the handshake keys of the session; `nw` records were written and `nr` read. -/
structure HsProt (x : Params) (client : Bool) (p : RecordPayloadProtection) (nw nr : Nat) : Prop where
  ks : p.keySchedule = x.ks
  cipher : p.cipher = x.c
  isClient : p.isClient = client
  w : wKey p = x.hsKey (if client then .client else .server) nw
  r : rKey p = x.hsKey (if client then .server else .client) nr

/-- The session's suite and bounds. -/
structure Params.Ok (x : Params) : Prop where
  cipher : x.cs.getCipher = .ok x.c
  ecdhe : x.ecdhe.length < 2 ^ 50

theorem expand_le (h : Hash) (secret : Bytes) (label : String) (context : Bytes) (len : Nat) :
    (Tls13.expandLabel h secret label context len).length ≤ len := by
  unfold Tls13.expandLabel hkdfExpand
  rw [List.length_take]
  omega

theorem out_le (t : HashType) : (rfcHash t).out ≤ 48 := by cases t <;> decide

theorem secret_le (x : Params) (side : Tls13.Side) : (x.sess.secret side).length ≤ 48 := by
  have := out_le x.t
  cases side <;> exact le_trans (expand_le _ _ _ _ _) this

theorem hsKey_sizes (x : Params) (side : Tls13.Side) (n : Nat) : KeyOk x.cs (x.hsKey side n) := by
  have h1 := secret_le x side
  have h2 := keyLen_le x.cs
  constructor
  · exact (expandQ_eq x.t _ "key" [] _ (by omega) (by simp [String.length]) (by omega)).2
  · exact (expandQ_eq x.t _ "iv" [] 12 (by omega) (by simp [String.length]) (by omega)).2

theorem hsKey_next (x : Params) (side : Tls13.Side) (n : Nat) : next (x.hsKey side n) = x.hsKey side (n + 1) := by
  unfold next Params.hsKey
  simp only [BitVec.ofNat_add]

theorem seq_ne {n : Nat} (h : n < 2 ^ 63) : BitVec.ofNat 64 n ≠ BitVec.allOnes 64 := by
  intro e
  have := congrArg BitVec.toNat e
  rw [BitVec.toNat_ofNat, BitVec.toNat_allOnes, Nat.mod_eq_of_lt (by omega)] at this
  omega

theorem seq_toNat {n : Nat} (h : n < 2 ^ 63) : (BitVec.ofNat 64 n).toNat = n := by
  rw [BitVec.toNat_ofNat, Nat.mod_eq_of_lt (by omega)]

theorem HsProt.readable {x : Params} (hx : x.Ok) {b : Bool} {p : RecordPayloadProtection} {nw nr : Nat} (h : HsProt x b p nw nr) (hn : nr < 2 ^ 63) :
    Readable x.cs p := by
  refine ⟨by rw [h.cipher]; exact hx.cipher, ?_, ?_⟩
  · rw [h.r]; exact hsKey_sizes x _ _
  · rw [h.r]
    show (BitVec.ofNat 64 nr).toNat < _
    rw [seq_toNat hn]
    omega

/-- A record an endpoint opened carries what came out; the reading key advances. -/
theorem decrypt_carries {x : Params} (hx : x.Ok) {b : Bool} {p p' : RecordPayloadProtection} {nw nr : Nat} (h : HsProt x b p nw nr) (hn : nr < 2 ^ 63)
    {buf : Bytes} {n : Nat} {r : Record} (hr : Record.fromRaw buf = .ok (n, r)) {t : RecordType} {content : Bytes} (ht : t ≠ .invalid)
    (hd : p.decrypt r = (.ok (t, content), p')) :
    Tls13.Carries (aead x.c) (x.sess.key (if b then .server else .client)) (x.sess.iv (if b then .server else .client)) nr t.code content (buf.take n) ∧
      HsProt x b p' nw (nr + 1) ∧ content.length < 2 ^ 16 ∧ content.length ≤ n := by
  obtain ⟨_, hw, hl5, hdr, hl, _, hnl⟩ := fromRaw_isRecord hr
  have hre := h.readable hx hn
  obtain ⟨ct, tag, inner, h1, h2, h3, h5, h4⟩ := C62_only_authentic x.cs p p' hre r ⟨hl5, hl⟩ t content hd
  have h16 : 16 ≤ r.fraqment.length := by rw [h1, List.length_append, h2]; omega
  obtain ⟨res, q, hd', _, hs⟩ := decrypt_any x.cs p hre.cipher hre.sizes hre.ne r h16 (by omega)
  rw [hd] at hd'
  have hq := (Prod.mk.inj hd').2
  subst hq
  rcases h4 with ⟨_, pad, rfl⟩ | ⟨e, _, _⟩
  swap
  · exact absurd e ht
  have hct : content.length < ct.length + 1 := by
    rw [← h5]
    simp only [List.length_append, List.length_singleton]
    omega
  refine ⟨⟨r.header, ct, tag, pad, hl5, h2, by rw [hw, h1, List.append_assoc], by rw [← h1]; exact hl, by rw [hdr, h1], ?_⟩, ?_, ?_⟩
  · rw [h.r, h.cipher] at h3
    have : (x.hsKey (if b = true then Tls13.Side.server else Tls13.Side.client) nr).sequenceNumber.toNat = nr := seq_toNat hn
    rw [this] at h3
    unfold aead
    have e : x.c.encrypt (x.sess.key (if b = true then .server else .client)) (Tls13.nonce (x.sess.iv (if b = true then .server else .client)) nr)
        (content ++ [t.code] ++ zeros pad) r.header = .ok (ct, tag) := h3
    rw [e]
  · refine ⟨by rw [hs.ks]; exact h.ks, by rw [hs.cipher]; exact h.cipher, by rw [hs.isClient]; exact h.isClient, by rw [hs.w]; exact h.w, ?_⟩
    rw [hs.r, h.r, hsKey_next]
  · have hn := congrArg List.length hw
    rw [List.length_take, List.length_append, h1, List.length_append] at hn
    rw [h1, List.length_append] at hl
    exact ⟨by omega, by omega⟩

/-- A handshake message written under the handshake keys is one protected record; the writing key advances. -/
theorem encrypt_sent {x : Params} {b : Bool} {p p' : RecordPayloadProtection} {nw nr : Nat} (h : HsProt x b p nw nr) (hn : nw < 2 ^ 63)
    {m wire : Bytes} (he : p.encrypt (Record.new .handshake m) = (.ok wire, p')) :
    Tls13.Sent (aead x.c) (x.sess.key (if b then .client else .server)) (x.sess.iv (if b then .client else .server)) nw [m] wire ∧
      HsProt x b p' (nw + 1) nr := by
  obtain ⟨q, hq, hs⟩ := writeNonce_eq p (by rw [h.w]; exact (hsKey_sizes x _ _).2) (by rw [h.w]; exact seq_ne hn)
  unfold RecordPayloadProtection.encrypt at he
  rw [hq] at he
  simp only [] at he
  cases hc : p.cipher.encrypt (wKey p).key (Tls13.nonce (wKey p).iv (wKey p).sequenceNumber.toNat)
      ((Record.new .handshake m).fraqment ++ [(Record.new .handshake m).contentType.code])
      [RecordType.applicationData.code, 3#8, 3#8,
        BitVec.ofNat 8 ((((Record.new .handshake m).fraqment ++ [(Record.new .handshake m).contentType.code]).length + 16) / 256),
        BitVec.ofNat 8 (((Record.new .handshake m).fraqment ++ [(Record.new .handshake m).contentType.code]).length + 16)] with
  | err e => rw [hc] at he; cases he
  | panic => rw [hc] at he; cases he
  | ok ctt =>
    obtain ⟨ct, tag⟩ := ctt
    rw [hc] at he
    have h1 := Res.ok.inj (Prod.mk.inj he).1
    have h2 := (Prod.mk.inj he).2
    subst h2
    have hhd : [RecordType.applicationData.code, 3#8, 3#8,
        BitVec.ofNat 8 ((((Record.new .handshake m).fraqment ++ [(Record.new .handshake m).contentType.code]).length + 16) / 256),
        BitVec.ofNat 8 (((Record.new .handshake m).fraqment ++ [(Record.new .handshake m).contentType.code]).length + 16)] =
        Tls13.protectedHeader (m.length + 1) := by
      simp [Tls13.protectedHeader, RecProof.beBytes2, Record.new, RecordType.code]
    rw [hhd] at hc h1
    refine ⟨⟨ct, tag, [], ?_, by rw [← h1, List.append_nil], rfl⟩, ?_⟩
    · rw [h.w, h.cipher] at hc
      have : (x.hsKey (if b = true then Tls13.Side.client else Tls13.Side.server) nw).sequenceNumber.toNat = nw := seq_toNat hn
      rw [this] at hc
      have e : x.c.encrypt (x.sess.key (if b = true then .client else .server)) (Tls13.nonce (x.sess.iv (if b = true then .client else .server)) nw)
        (m ++ [22#8]) (Tls13.protectedHeader (m.length + 1)) = .ok (ct, tag) := hc
      unfold aead
      rw [e]
    · refine ⟨by rw [hs.ks]; exact h.ks, by rw [hs.cipher]; exact h.cipher, by rw [hs.isClient]; exact h.isClient, ?_, by rw [hs.r]; exact h.r⟩
      rw [hs.w, h.w, hsKey_next]

theorem sent_append (a : Tls13.Seal) (key iv : Bytes) : ∀ (ms ms' : List Bytes) (seq : Nat) (w w' : Bytes), Tls13.Sent a key iv seq ms w →
    Tls13.Sent a key iv (seq + ms.length) ms' w' → Tls13.Sent a key iv seq (ms ++ ms') (w ++ w')
  | [], ms', seq, w, w', h1, h2 => by
    have h1 : w = [] := h1
    subst h1
    exact h2
  | m :: ms, ms', seq, w, w', ⟨ct, tag, rest, h1, h2, h3⟩, h4 => by
    refine ⟨ct, tag, rest ++ w', h1, by rw [h2]; simp only [List.append_assoc], ?_⟩
    exact sent_append a key iv ms ms' (seq + 1) rest w' h3 (by rwa [List.length_cons, Nat.add_comm ms.length 1, ← Nat.add_assoc] at h4)

theorem otherRecord {t : RecordType} {c w : Bytes} (h1 : t ≠ .changeCipherSpec) (h2 : t ≠ .alert) (h : Tls13.IsRecord t.code c w) : Tls13.OtherRecord w :=
  ⟨t.code, c, by cases t <;> first | exact absurd rfl h1 | exact absurd rfl h2 | decide, h⟩

theorem carried_append (a : Tls13.Seal) (key iv : Bytes) {seq : Nat} {ms : List Bytes} {w : Bytes} (h1 : Tls13.Carried a key iv seq ms w) :
    ∀ {ms' : List Bytes} {w' : Bytes}, Tls13.Carried a key iv (seq + ms.length) ms' w' → Tls13.Carried a key iv seq (ms ++ ms') (w ++ w') := by
  induction h1 with
  | nil seq => intro ms' w' h; exact h
  | ccs seq cs c wr rest h1 h2 ih =>
    intro ms' w' h
    rw [List.append_assoc]
    exact .ccs _ _ _ _ _ h1 (ih h)
  | cons seq c cs wr rest h1 h0 h2 ih =>
    intro ms' w' h
    rw [List.append_assoc]
    exact .cons _ _ _ _ _ h1 h0 (ih (by rwa [List.length_cons, Nat.add_comm cs.length 1, ← Nat.add_assoc] at h))

theorem records_append {t : Byte} {w : Bytes} (h1 : Tls13.RecordsWithout t w) : ∀ {w' : Bytes}, Tls13.RecordsWithout t w' →
    Tls13.RecordsWithout t (w ++ w') := by
  induction h1 with
  | nil => intro w' h; exact h
  | cons ty c wr rest h1 h2 _ ih =>
    intro w' h
    rw [List.append_assoc]
    exact .cons _ _ _ _ h1 h2 (ih h)

/-! ### Key schedule -/

theorem to32_length {num : Int} {o : ByteOrder} {b : Bytes} {ε : Type} (h : (ibigTo32bytes num o : Res ε Bytes) = .ok b) : b.length = 32 := by
  unfold ibigTo32bytes at h
  obtain ⟨v, _, h⟩ := Res.bind_eq_ok.1 h
  cases h
  simp only [List.length_append, List.length_take, zeros_length]
  omega

/-- The key schedule of the handshake is that of the session whose shared secret the key exchange gives. -/
theorem fromHandshake_params {t : HashType} {m : Bytes} {pk : PrivateKey} {kse : KeyShareEntry} {ks : KeySchedule} (hm : m.length < 2 ^ 53)
    (h : KeySchedule.fromHandshake (ts t m) pk kse = .ok ks) (cs : CipherSuite) (c : Cipher) :
    ∃ secret, kse.group = .x25519 ∧ sharedSecret pk kse.opaq = .ok secret ∧ secret.length = 32 ∧ ks = (Params.mk t cs c secret m).ks := by
  unfold KeySchedule.fromHandshake at h
  split_ifs at h with hg
  obtain ⟨secret, h1, h⟩ := Res.bind_eq_ok.1 h
  have h1' : sharedSecret pk kse.opaq = .ok secret := by
    cases hs : sharedSecret pk kse.opaq with
    | ok s => rw [hs] at h1; cases h1; rfl
    | err e => rw [hs] at h1; cases h1
    | panic => rw [hs] at h1; cases h1
  have hl : secret.length = 32 := by
    unfold sharedSecret at h1'
    obtain ⟨sh, _, h2⟩ := Res.bind_eq_ok.1 h1'
    exact to32_length h2
  refine ⟨secret, by simpa using hg, h1', hl, ?_⟩
  have hf : (ts t m).finalize.length = (rfcHash (ts t m).getType).out := ts_finalize_length _
  rw [C25_secrets _ _ secret hf (by omega)] at h
  simp only [Res.mapErr] at h
  rw [← Res.ok.inj h, ts_finalize t m hm, ts_type]
  rfl

theorem master_le (x : Params) : (Tls13.masterSecret (rfcHash x.t) x.ecdhe).length ≤ 48 := by
  have hsz := out_le x.t
  obtain ⟨salt, hsalt⟩ : ∃ salt, salt = Tls13.deriveSecret (rfcHash x.t) (Tls13.handshakeSecret (rfcHash x.t) x.ecdhe) "derived" ((rfcHash x.t).H []) :=
    ⟨_, rfl⟩
  have h1 : salt.length ≤ 48 := by rw [hsalt]; exact le_trans (expand_le _ _ _ _ _) hsz
  have := C10_hkdf_extract_partial x.t salt (zeros (rfcHash x.t).out) (by omega) (by simp; omega) (Or.inr (Or.inl (by omega)))
  have h3 := congrArg (fun k => k.prk.length) this
  simp only [Hkdf.extract, hmac_length] at h3
  unfold Tls13.masterSecret
  rw [← hsalt, ← h3]
  cases x.t <;> decide

/-- The protection made from the key schedule of a session holds its handshake keys. -/
theorem new_hsProt {x : Params} (hx : x.Ok) (b : Bool) {p : RecordPayloadProtection} (h : RecordPayloadProtection.new x.ks x.c b = .ok p) :
    HsProt x b p 0 0 := by
  unfold RecordPayloadProtection.new at h
  obtain ⟨w, h1, h2⟩ := Res.bind_eq_ok.1 h
  have hcs := suite_of_cipher hx.cipher
  have hm : (Tls13.masterSecret (rfcHash x.t) x.ecdhe).length ≤ 64 := by have := master_le x; omega
  have hk := (C25_traffic_keys x.t x.cs (x.sess.secret .client) (x.sess.secret .server) (Tls13.masterSecret (rfcHash x.t) x.ecdhe)
    (zeros (rfcHash x.t).out) (by have := secret_le x .client; omega) (by have := secret_le x .server; omega) hm (zeros_length _)).1
  rw [hcs] at h1
  have h1' : WriteKeys.handshakeKeys x.ks x.cs = .ok w := h1
  unfold Params.ks at h1'
  rw [hk] at h1'
  cases h1'
  cases h2
  refine ⟨rfl, rfl, rfl, ?_, ?_⟩
  · cases b <;> rfl
  · cases b <;> rfl

/-- The application keys of a session, fresh. -/
def Params.appKey (x : Params) (m : Bytes) (side : Tls13.Side) : Key := rfcKey x.t x.cs (x.sess.appSecret m side)

/-- The application keys made from the transcript `m` are those of the session. -/
theorem generate_app {x : Params} (hx : x.Ok) {b : Bool} {p p' : RecordPayloadProtection} {nw nr : Nat} (h : HsProt x b p nw nr) {m : Bytes}
    (hm : m.length < 2 ^ 53) (hg : p.generateApplicationKeys (ts x.t m) = .ok p') :
    wKey p' = x.appKey m (if b then .client else .server) ∧ rKey p' = x.appKey m (if b then .server else .client) ∧ p'.cipher = x.c ∧
      p'.isClient = b ∧ p'.keySchedule = x.ks := by
  have hcs := suite_of_cipher hx.cipher
  have hk := (C25_traffic_keys x.t x.cs (x.sess.secret .client) (x.sess.secret .server) (Tls13.masterSecret (rfcHash x.t) x.ecdhe)
    (ts x.t m).finalize (by have := secret_le x .client; omega) (by have := secret_le x .server; omega) (by have := master_le x; omega)
    (by rw [ts_finalize_length, ts_type])).2
  unfold RecordPayloadProtection.generateApplicationKeys at hg
  rw [h.cipher, hcs, h.ks] at hg
  have e : x.ks.hkdfMasterSecret = ⟨x.t, Tls13.masterSecret (rfcHash x.t) x.ecdhe⟩ := rfl
  rw [e, hk, ts_finalize x.t m hm] at hg
  cases hg
  refine ⟨?_, ?_, rfl, h.isClient, rfl⟩
  · unfold wKey
    rw [show ({ p with applicationKeys := _ } : RecordPayloadProtection).isClient = b from h.isClient]
    cases b <;> rfl
  · unfold rKey
    rw [show ({ p with applicationKeys := _ } : RecordPayloadProtection).isClient = b from h.isClient]
    cases b <;> rfl

/-- The random value of the ClientHello, RFC 8446 section 4.1.2: 32 bytes after the header of the message and the version. -/
def Params.random (x : Params) : Bytes := (x.hellos.drop 6).take 32

/-- What is appended to the key log `path` (if any) when the handshake secrets are known. -/
def hsLog (path : Option Bytes) (x : Params) : List Bytes :=
  path.toList.map fun f => (KeyLog.new f x.random).handshakeTrafficSecrets (x.sess.secret .server) (x.sess.secret .client)

/-- What is appended when the application secrets are known; `m`: the transcript through the server's Finished. -/
def appLog (path : Option Bytes) (x : Params) (m : Bytes) : List Bytes :=
  path.toList.map fun f => (KeyLog.new f x.random).applicationTrafficSecrets (x.sess.appSecret m .server) (x.sess.appSecret m .client)

/-- The key log between the ServerHello and the end of the handshake. -/
def Logs (path : Option Bytes) (x : Params) (keylog : Option KeyLog) (logged : List Bytes) : Prop :=
  keylog = path.map (KeyLog.new · x.random) ∧ logged = hsLog path x

theorem hs_secrets {x : Params} {b : Bool} {p : RecordPayloadProtection} {nw nr : Nat} (h : HsProt x b p nw nr) (ha : p.applicationKeys = none) :
    p.handshakeKeys.server.trafficSecret = x.sess.secret .server ∧ p.handshakeKeys.client.trafficSecret = x.sess.secret .client := by
  have hw := h.w
  have hr := h.r
  unfold wKey at hw
  unfold rKey at hr
  have hk : p.keys = p.handshakeKeys := by unfold RecordPayloadProtection.keys; rw [ha]
  rw [h.isClient, hk] at hw hr
  cases b
  · exact ⟨congrArg Key.trafficSecret hw, congrArg Key.trafficSecret hr⟩
  · exact ⟨congrArg Key.trafficSecret hr, congrArg Key.trafficSecret hw⟩

theorem app_chunk {x : Params} {b : Bool} {p p' : RecordPayloadProtection} {t : TsHash} {m : Bytes} (k : KeyLog)
    (hg : p.generateApplicationKeys t = .ok p')
    (hw : wKey p' = x.appKey m (if b then .client else .server)) (hr : rKey p' = x.appKey m (if b then .server else .client)) (hb : p'.isClient = b) :
    k.fromProtection p' = k.applicationTrafficSecrets (x.sess.appSecret m .server) (x.sess.appSecret m .client) := by
  obtain ⟨a, ha⟩ : ∃ a, p'.applicationKeys = some a := by
    unfold RecordPayloadProtection.generateApplicationKeys at hg
    split at hg
    · cases hg
      exact ⟨_, rfl⟩
    · cases hg
    · cases hg
  unfold wKey at hw
  unfold rKey at hr
  have hk : p'.keys = a := by unfold RecordPayloadProtection.keys; rw [ha]
  unfold KeyLog.fromProtection
  rw [ha]
  simp only []
  rw [hb, hk] at hw hr
  cases b
  · rw [show a.server = x.appKey m .server from hw, show a.client = x.appKey m .client from hr]
    rfl
  · rw [show a.server = x.appKey m .server from hr, show a.client = x.appKey m .client from hw]
    rfl

theorem app_logged {path : Option Bytes} {x : Params} {keylog : Option KeyLog} {logged : List Bytes} {p : RecordPayloadProtection} {m : Bytes}
    (h : Logs path x keylog logged)
    (hc : ∀ k : KeyLog, k.fromProtection p = k.applicationTrafficSecrets (x.sess.appSecret m .server) (x.sess.appSecret m .client)) :
    logged ++ keylog.toList.map (·.fromProtection p) = hsLog path x ++ appLog path x m := by
  obtain ⟨rfl, rfl⟩ := h
  congr 1
  cases path with
  | none => rfl
  | some f => exact congrArg (fun c => [c]) (hc _)

/-- The Finished message computed from the session's secret and a transcript. -/
theorem verify_data (x : Params) (side : Tls13.Side) (m : Bytes) (hm : m.length < 2 ^ 53) :
    getVerifyDataForFinished ⟨x.t, x.sess.secret side⟩ (ts x.t m) =
      .ok (Tls13.verifyData (rfcHash x.t) (x.sess.secret side) ((rfcHash x.t).H m)) := by
  have := C25_finished (x.sess.secret side) (ts x.t m) (by have := secret_le x side; omega)
  rw [ts_type, ts_finalize x.t m hm] at this
  exact this

theorem toBytes_eq (t : HandshakeType) (data : Bytes) : Handshake.toBytes t data = Tls13.handshakeMessage t.code data := by
  unfold Handshake.toBytes Tls13.handshakeMessage
  rw [WireProof.beBytes3, Nat.shiftRight_eq_div_pow, Nat.shiftRight_eq_div_pow]
  rfl

theorem finished_message (x : Params) (side : Tls13.Side) (m : Bytes) (hm : m.length < 2 ^ 53) :
    getFinishedHandshake ⟨x.t, x.sess.secret side⟩ (ts x.t m) = .ok (x.sess.finished side m) := by
  unfold getFinishedHandshake
  rw [verify_data x side m hm]
  simp only [Res.ok_bind, toBytes_eq]
  rfl

theorem finished_le (x : Params) (side : Tls13.Side) (m : Bytes) (hm : m.length < 2 ^ 53) : (x.sess.finished side m).length ≤ 52 := by
  have hsz := out_le x.t
  have h1 : (Tls13.finishedKey (rfcHash x.t) (x.sess.secret side)).length ≤ 48 := le_trans (expand_le _ _ _ _ _) hsz
  have h2 : ((rfcHash x.t).H m).length ≤ 48 := by
    rw [← ts_finalize x.t m hm, ts_finalize_length, ts_type]; exact hsz
  have h3 := congrArg List.length (C09_hmac_partial x.t (Tls13.finishedKey (rfcHash x.t) (x.sess.secret side)) [(rfcHash x.t).H m] (by omega)
    (by simp; omega) (Or.inr (Or.inl (by omega))))
  rw [hmac_length] at h3
  simp only [List.flatten_cons, List.flatten_nil, List.append_nil] at h3
  have h4 : (Tls13.verifyData (rfcHash x.t) (x.sess.secret side) ((rfcHash x.t).H m)).length ≤ 48 := by
    unfold Tls13.verifyData
    rw [← h3]
    cases x.t <;> decide
  unfold Tls13.Session.finished Tls13.handshakeMessage
  simp only [List.length_append, beBytes_length, List.length_cons, List.length_nil]
  have : (Tls13.verifyData x.sess.hash (x.sess.secret side) (x.sess.hash.H m)).length ≤ 48 := h4
  omega

/-- What the message parser takes from the front of a content is a handshake message. -/
theorem handshake_inv {buf : Bytes} {hs : Handshake} (h : Handshake.fromRaw buf = .ok hs) :
    hs.raw = Tls13.handshakeMessage hs.handshakeType.code hs.fraqment ∧ buf = hs.raw ++ buf.drop hs.raw.length ∧ hs.fraqment.length + 4 ≤ buf.length ∧
      hs.fraqment.length < 2 ^ 24 := by
  rcases buf with _ | ⟨b0, _ | ⟨b1, _ | ⟨b2, _ | ⟨b3, rest⟩⟩⟩⟩ <;>
    first
    | (simp [Handshake.fromRaw] at h; done)
    | skip
  rcases ht : HandshakeType.new b0 with _ | t
  · simp [Handshake.fromRaw, idx, ht, Res.okOr] at h
  have := WireProof.hs_code_of_new ht
  subst this
  rw [WireProof.hs_fromRaw_cons] at h
  obtain ⟨len, hlen⟩ : ∃ len, len = b1.toNat * 65536 + b2.toNat * 256 + b3.toNat := ⟨_, rfl⟩
  rw [← hlen] at h
  split_ifs at h with hc
  cases h
  have hl : (rest.take len).length = len := by rw [List.length_take]; omega
  have hb1 := b1.isLt
  have hb2 := b2.isLt
  have hb3 := b3.isLt
  refine ⟨?_, ?_, ?_, ?_⟩
  · unfold Tls13.handshakeMessage
    rw [hl, WireProof.beBytes3]
    have e1 : len / 65536 = b1.toNat := by omega
    have e2 : BitVec.ofNat 8 (len / 256) = b2 := by
      apply BitVec.eq_of_toNat_eq
      rw [BitVec.toNat_ofNat]
      omega
    have e3 : BitVec.ofNat 8 len = b3 := by
      apply BitVec.eq_of_toNat_eq
      rw [BitVec.toNat_ofNat]
      omega
    rw [e1, e2, e3, BitVec.ofNat_toNat, BitVec.setWidth_eq]
    rfl
  · simp only [List.length_cons, hl, List.drop_succ_cons, List.cons_append, List.take_append_drop]
  · simp only [hl, List.length_cons]
    omega
  · simp only [hl]
    omega

end ATLS.FlowProof
