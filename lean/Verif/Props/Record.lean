import Verif.Proof.Record
import Verif.Props.Hash
import Mathlib.Data.List.Nodup
/-
C17-C20, C25, C26: records, record protection and the key schedule.
-/
namespace ATLS
open ATLS.Spec ATLS.Model ATLS.KsProof ATLS.RecProof

/-! ### C17, C18 -/

/-- C17: parsing the serialisation of a record, whatever follows, gives its type, version and fragment and consumes exactly the record. -/
theorem C17_record_round_trip (t : RecordType) (f rest : Bytes) (hf : f.length ≤ 2 ^ 16 - 1) :
    ∃ r, Record.fromRaw ((Record.new t f).asBytes ++ rest) = .ok ((Record.new t f).asBytes.length, r) ∧
      r.contentType = t ∧ r.version = 0x0303 ∧ r.fraqment = f ∧ r.len = f.length := by
  refine ⟨⟨t, 0x0303, f.length, [t.code, 3#8, 3#8, BitVec.ofNat 8 (f.length / 256), BitVec.ofNat 8 f.length], f⟩, ?_, ?_⟩
  · have := fromRaw_header t 3#8 3#8 f rest (by omega)
    unfold Record.asBytes Record.new
    simp only []
    rw [this]
    simp only [List.length_append, List.length_cons, List.length_nil]
    rfl
  · simp

example : Record.fromRaw ((Record.new .handshake [1, 2, 3]).asBytes ++ [9, 9]) =
    .ok (8, ⟨.handshake, 0x0303, 3, [22, 3, 3, 0, 3], [1, 2, 3]⟩) := by decide

/-- C18 in full: record parsing returns for every input. -/
def C18_statement : Prop := ∀ buf : Bytes, (Record.fromRaw buf).returns

/-- C18 is false: a header promising 3 bytes with none present makes the parser slice out of range. -/
theorem C18_false : ¬ C18_statement := fun h => absurd (h [22, 3, 3, 0, 3]) (by decide +kernel)

/-- C18 as far as it holds: parsing panics exactly on a header of a known type whose length field exceeds the bytes that follow by one, two
or three; on every other input it returns. Missing: those inputs. -/
theorem C18_record_parse_partial (buf : Bytes) :
    (Record.fromRaw buf).returns ↔
      ¬ ∃ (t : RecordType) (v1 v2 l1 l2 : Byte) (rest : Bytes), buf = t.code :: v1 :: v2 :: l1 :: l2 :: rest ∧
        (l1.toNat * 256 + l2.toNat = rest.length + 1 ∨ l1.toNat * 256 + l2.toNat = rest.length + 2 ∨
          l1.toNat * 256 + l2.toNat = rest.length + 3) := by
  have h : (Record.fromRaw buf).returns ↔ ¬ Record.fromRaw buf = .panic := by
    cases Record.fromRaw buf <;> simp [Res.returns]
  rw [h, fromRaw_panic_iff]
  refine not_congr ?_
  constructor
  · rintro ⟨t, v1, v2, l1, l2, rest, h1, h2, h3⟩; exact ⟨t, v1, v2, l1, l2, rest, h1, by omega⟩
  · rintro ⟨t, v1, v2, l1, l2, rest, h1, h2⟩; exact ⟨t, v1, v2, l1, l2, rest, h1, by omega, by omega⟩

example : Record.fromRaw [22, 3, 3, 0, 4] = .err .decodeError ∧ Record.fromRaw [22, 3, 3, 0, 3] = .panic := by decide

/-! ### C19 -/

/-- What the sending endpoint does: send a message, process a record from the peer, switch to the application keys. -/
inductive SendEv where
  | send (t : RecordType) (content : Bytes)
  | hear (r : Record)
  | keys (ts : TsHash)

/-- What the receiving endpoint does: open the next record of the stream, send a record of its own, switch to the application keys. -/
inductive RecvEv where
  | recv
  | say (t : RecordType) (content : Bytes)
  | keys (ts : TsHash)

/-- The sender: the bytes it puts on the wire. -/
def runSender : RecordPayloadProtection → List SendEv → Res TlsError (Bytes × RecordPayloadProtection)
  | p, [] => .ok ([], p)
  | p, .send t c :: es =>
    match p.encrypt (Record.new t c) with
    | (.ok w, p') => do
      let (w', p'') ← runSender p' es
      .ok (w ++ w', p'')
    | (.err e, _) => .err e
    | (.panic, _) => .panic
  | p, .hear r :: es =>
    match p.decrypt r with
    | (.panic, _) => .panic
    | (_, p') => runSender p' es
  | p, .keys ts :: es => do
    let p' ← p.generateApplicationKeys ts
    runSender p' es

/-- The receiver: the messages it gets out of the stream, and the bytes left over. -/
def runReceiver : RecordPayloadProtection → Bytes → List RecvEv → Res TlsError (List (RecordType × Bytes) × Bytes)
  | _, stream, [] => .ok ([], stream)
  | p, stream, .recv :: rs => do
    let (n, r) ← Record.fromRaw stream
    match p.decrypt r with
    | (.ok m, p') => do
      let (ms, left) ← runReceiver p' (stream.drop n) rs
      .ok (m :: ms, left)
    | (.err e, _) => .err e
    | (.panic, _) => .panic
  | p, stream, .say t c :: rs =>
    match p.encrypt (Record.new t c) with
    | (.panic, _) => .panic
    | (_, p') => runReceiver p' stream rs
  | p, stream, .keys ts :: rs => do
    let p' ← p.generateApplicationKeys ts
    runReceiver p' stream rs

/-- The messages sent. -/
def SendEv.messages : List SendEv → List (RecordType × Bytes)
  | [] => []
  | .send t c :: es => (t, c) :: messages es
  | _ :: es => messages es

/-- The order of messages and key switches (with the transcript hash used), on either side. -/
def SendEv.order : List SendEv → List (Option Bytes)
  | [] => []
  | .send _ _ :: es => none :: order es
  | .hear _ :: es => order es
  | .keys ts :: es => some ts.finalize :: order es
def RecvEv.order : List RecvEv → List (Option Bytes)
  | [] => []
  | .recv :: rs => none :: order rs
  | .say _ _ :: rs => order rs
  | .keys ts :: rs => some ts.finalize :: order rs

/-- Messages have a real content type and at most `bound` bytes; records heard are records of at least 16 bytes as the parser returns them. -/
def SendEv.ok (bound : Nat) : SendEv → Prop
  | .send t c => t ≠ .invalid ∧ c.length ≤ bound
  | .hear r => r.header.length = 5 ∧ 16 ≤ r.fraqment.length ∧ r.fraqment.length < 2 ^ 16
  | .keys _ => True
def RecvEv.ok (bound : Nat) : RecvEv → Prop
  | .say _ c => c.length ≤ bound
  | _ => True

/-- C19 for messages of up to `bound` bytes: two endpoints with the same secrets and suite (one client, one server): whatever messages the one
sends, the other opens the byte stream to exactly these messages in this order and consumes exactly their bytes, when both switch keys at the
same point between messages; in between the sender may process any incoming records and the receiver may send any records of its own. -/
def C19_upTo (bound : Nat) : Prop :=
  ∀ (cs : CipherSuite) (c : Cipher), cs.getCipher = .ok c → ∀ (ks : KeySchedule) (client : Bool),
    ∃ a b, RecordPayloadProtection.new ks c client = .ok a ∧ RecordPayloadProtection.new ks c (!client) = .ok b ∧
    ∀ (es : List SendEv) (rs : List RecvEv), es.length < 2 ^ 64 → rs.length < 2 ^ 64 → (∀ e ∈ es, e.ok bound) → (∀ r ∈ rs, r.ok bound) →
      SendEv.order es = RecvEv.order rs →
      ∃ wire a', runSender a es = .ok (wire, a') ∧
        ∀ rest, runReceiver b (wire ++ rest) rs = .ok (SendEv.messages es, rest)

/-- C19 in full: messages of any size (here: up to 2^20 bytes; the record format allows 2^14). -/
def C19_statement : Prop := C19_upTo (2 ^ 20)

namespace RecProof

/-- Key usable for `m` more records. -/
def Good (cs : CipherSuite) (k : Key) (m : Nat) : Prop := KeyOk cs k ∧ k.sequenceNumber.toNat + m < 2 ^ 64

theorem Good.ne {cs : CipherSuite} {k : Key} {m : Nat} (h : Good cs k m) (hm : 0 < m) : k.sequenceNumber ≠ BitVec.allOnes 64 := by
  intro e
  have := h.2
  rw [e] at this
  simp at this; omega

theorem Good.next {cs : CipherSuite} {k : Key} {m : Nat} (h : Good cs k (m + 1)) : Good cs (RecProof.next k) m := by
  refine ⟨h.1, ?_⟩
  have := h.2
  show (k.sequenceNumber + 1#64).toNat + m < 2 ^ 64
  rw [BitVec.toNat_add]
  simp only [BitVec.toNat_ofNat]
  omega

theorem Good.mono {cs : CipherSuite} {k : Key} {m n : Nat} (h : Good cs k m) (hn : n ≤ m) : Good cs k n := ⟨h.1, by have := h.2; omega⟩

theorem genKeys (cs : CipherSuite) (p : RecordPayloadProtection) (hcs : p.cipher.getCipherSuite = cs) (ts : TsHash) :
    ∃ w, WriteKeys.applicationKeysFromMasterSecret p.keySchedule.hkdfMasterSecret ts.finalize cs = .ok w ∧ Fresh cs w ∧
      p.generateApplicationKeys ts = .ok { p with applicationKeys := some w } := by
  obtain ⟨w, h1, h2⟩ := applicationKeys_ok p.keySchedule.hkdfMasterSecret ts.finalize cs
  refine ⟨w, h1, h2, ?_⟩
  unfold RecordPayloadProtection.generateApplicationKeys
  rw [hcs, h1]

theorem suite_of_cipher {cs : CipherSuite} {c : Cipher} (h : cs.getCipher = .ok c) : c.getCipherSuite = cs := by
  cases cs <;> simp only [CipherSuite.getCipher, Res.ok.injEq, reduceCtorEq] at h <;> subst h <;> rfl

theorem duplex (cs : CipherSuite) (es : List SendEv) (rs : List RecvEv) (a b : RecordPayloadProtection)
    (hca : cs.getCipher = .ok a.cipher) (hcb : b.cipher = a.cipher) (hks : b.keySchedule = a.keySchedule)
    (hcl : b.isClient = !a.isClient) (hkey : rKey b = wKey a)
    (hgw : Good cs (wKey a) es.length) (hgr : Good cs (rKey a) es.length) (hgw' : Good cs (wKey b) rs.length)
    (hgr' : Good cs (rKey b) rs.length)
    (hlen : es.length < 2 ^ 64) (hlen' : rs.length < 2 ^ 64)
    (hes : ∀ e ∈ es, e.ok (2 ^ 16 - 18)) (hrs : ∀ r ∈ rs, r.ok (2 ^ 16 - 18)) (ho : SendEv.order es = RecvEv.order rs) :
    ∃ wire a', runSender a es = .ok (wire, a') ∧ ∀ rest, runReceiver b (wire ++ rest) rs = .ok (SendEv.messages es, rest) := by
  match es, rs with
  | [], [] => exact ⟨[], a, rfl, fun rest => rfl⟩
  | .hear r :: es, rs =>
    obtain ⟨h1, h2, h3⟩ := hes (.hear r) (by simp)
    obtain ⟨res, a', hd, hr, hst⟩ := decrypt_any cs a hca hgr.1 (hgr.ne (by simp)) r h2 (by omega)
    simp only [List.length_cons] at hgw hgr hlen
    obtain ⟨w, a'', hw, hall⟩ := duplex cs es rs a' b (by rw [hst.cipher]; exact hca) (by rw [hst.cipher]; exact hcb)
      (by rw [hst.ks]; exact hks) (by rw [hst.isClient]; exact hcl) (by rw [hst.w]; exact hkey)
      (by rw [hst.w]; exact hgw.mono (by omega)) (by rw [hst.r]; exact hgr.next) hgw' hgr' (by omega) hlen'
      (fun e he => hes e (by simp [he])) hrs ho
    refine ⟨w, a'', ?_, hall⟩
    unfold runSender
    rw [hd]
    cases res with
    | ok _ => exact hw
    | err _ => exact hw
    | panic => exact absurd hr id
  | es, .say t c :: rs =>
    have h1 : c.length ≤ 2 ^ 16 - 18 := hrs (.say t c) (by simp)
    obtain ⟨w0, b', hd, _, hst⟩ := encrypt_spec cs b (by rw [hcb]; exact hca) hgw'.1 (hgw'.ne (by simp)) t c (by omega)
    simp only [List.length_cons] at hgw' hgr' hlen'
    obtain ⟨w, a'', hw, hall⟩ := duplex cs es rs a b' hca (by rw [hst.cipher]; exact hcb)
      (by rw [hst.ks]; exact hks) (by rw [hst.isClient]; exact hcl) (by rw [hst.r]; exact hkey)
      hgw hgr (by rw [hst.w]; exact hgw'.next) (by rw [hst.r]; exact hgr'.mono (by omega)) hlen (by omega)
      hes (fun e he => hrs e (by simp [he])) ho
    refine ⟨w, a'', hw, fun rest => ?_⟩
    unfold runReceiver
    rw [hd]
    exact hall rest
  | .send t c :: es, .recv :: rs =>
    obtain ⟨h1, h2⟩ := hes (.send t c) (by simp)
    obtain ⟨w0, a', he, hse, hst⟩ := encrypt_spec cs a hca hgw.1 (hgw.ne (by simp)) t c (by omega)
    have hdec := fun rest => decrypt_spec cs b (by rw [hcb]; exact hca) hgr'.1 (hgr'.ne (by simp)) t h1 c 0 w0 rest (by omega)
      (by rw [hkey, hcb]; exact hse)
    simp only [List.length_cons] at hgw hgr hgw' hgr' hlen hlen'
    have hb : ∃ b', ∀ rest, ∃ r, Record.fromRaw (w0 ++ rest) = .ok (w0.length, r) ∧ b.decrypt r = (.ok (t, c), b') ∧
        Step b b' (wKey b) (RecProof.next (rKey b)) := by
      obtain ⟨r0, b', e1, _, _, _, e3, e4⟩ := hdec []
      refine ⟨b', fun rest => ?_⟩
      obtain ⟨r, b'', f1, _, _, _, f3, f4⟩ := hdec rest
      obtain ⟨r1, e1'⟩ : ∃ r1, Record.fromRaw (w0 ++ rest) = .ok (w0.length, r1) ∧ r1 = r0 := by
        obtain ⟨ct, tag, hwe, _, hl1, hl2⟩ := hse
        have hlen : (ct ++ tag).length = c.length + 1 + 0 + 16 := by rw [List.length_append, hl1, hl2]
        have hraw := fun rest => fromRaw_header .applicationData 3#8 3#8 (ct ++ tag) rest (by omega)
        rw [hlen] at hraw
        have hw0 : w0 = [RecordType.applicationData.code, 3#8, 3#8, BitVec.ofNat 8 ((c.length + 1 + 0 + 16) / 256),
            BitVec.ofNat 8 (c.length + 1 + 0 + 16)] ++ (ct ++ tag) := by rw [hwe, beBytes2]; rfl
        have g0 := hraw []
        have g1 := hraw rest
        rw [← hw0] at g0 g1
        rw [e1] at g0
        rw [f1] at g1
        simp only [Res.ok.injEq, Prod.mk.injEq] at g0 g1
        exact ⟨r, f1, by rw [g1.2, g0.2]⟩
      rw [f1] at e1'
      simp only [Res.ok.injEq, Prod.mk.injEq, true_and] at e1'
      have hrr : r = r0 := e1'.1.trans e1'.2
      subst hrr
      exact ⟨r, f1, e3, e4⟩
    obtain ⟨b', hb'⟩ := hb
    have hstb := (hb' []).choose_spec.2.2
    obtain ⟨w, a'', hw, hall⟩ := duplex cs es rs a' b' (by rw [hst.cipher]; exact hca) (by rw [hst.cipher, hstb.cipher]; exact hcb)
      (by rw [hst.ks, hstb.ks]; exact hks) (by rw [hst.isClient, hstb.isClient]; exact hcl) (by rw [hst.w, hstb.r, hkey])
      (by rw [hst.w]; exact hgw.next) (by rw [hst.r]; exact hgr.mono (by omega))
      (by rw [hstb.w]; exact hgw'.mono (by omega)) (by rw [hstb.r]; exact hgr'.next) (by omega) (by omega)
      (fun e he => hes e (by simp [he])) (fun e he => hrs e (by simp [he]))
      (by simpa [SendEv.order, RecvEv.order] using ho)
    refine ⟨w0 ++ w, a'', ?_, fun rest => ?_⟩
    · unfold runSender
      rw [he]
      simp only []
      rw [hw]; rfl
    · unfold runReceiver
      obtain ⟨r, f1, f2, _⟩ := hb' (w ++ rest)
      rw [List.append_assoc, f1]
      simp only [Res.ok_bind]
      rw [f2]
      simp only [List.drop_left]
      rw [hall rest]; rfl
  | .keys ts :: es, .keys ts' :: rs =>
    have hts : ts.finalize = ts'.finalize := by
      have := (List.cons.inj ho).1
      simpa using this
    have hcsa := suite_of_cipher hca
    obtain ⟨w, h1, hfr, h2⟩ := genKeys cs a hcsa ts
    obtain ⟨w', h1', hfr', h2'⟩ := genKeys cs b (by rw [hcb]; exact hcsa) ts'
    rw [← hts, hks, h1] at h1'
    simp only [Res.ok.injEq] at h1'
    subst h1'
    simp only [List.length_cons] at hlen hlen'
    have gs : ∀ m, m < 2 ^ 64 → Good cs w.server m := fun m hm => ⟨⟨hfr.1.1, hfr.1.2.1⟩, by rw [hfr.1.2.2]; simpa using hm⟩
    have gc : ∀ m, m < 2 ^ 64 → Good cs w.client m := fun m hm => ⟨⟨hfr.2.1, hfr.2.2.1⟩, by rw [hfr.2.2.2]; simpa using hm⟩
    obtain ⟨wi, a'', hw, hall⟩ := duplex cs es rs { a with applicationKeys := some w } { b with applicationKeys := some w } hca hcb hks hcl
      (by simp only [rKey, wKey, RecordPayloadProtection.keys, hcl]; cases a.isClient <;> rfl)
      (by simp only [wKey, RecordPayloadProtection.keys]; cases a.isClient; exact gs _ (by omega); exact gc _ (by omega))
      (by simp only [rKey, RecordPayloadProtection.keys]; cases a.isClient; exact gc _ (by omega); exact gs _ (by omega))
      (by simp only [wKey, RecordPayloadProtection.keys]; cases b.isClient; exact gs _ (by omega); exact gc _ (by omega))
      (by simp only [rKey, RecordPayloadProtection.keys]; cases b.isClient; exact gc _ (by omega); exact gs _ (by omega))
      (by omega) (by omega)
      (fun e he => hes e (by simp [he])) (fun e he => hrs e (by simp [he])) (List.cons.inj ho).2
    refine ⟨wi, a'', ?_, fun rest => ?_⟩
    · unfold runSender
      rw [h2]
      exact hw
    · unfold runReceiver
      rw [h2']
      exact hall rest
  | [], .recv :: rs | [], .keys _ :: rs | .send _ _ :: es, [] | .keys _ :: es, [] | .send _ _ :: es, .keys _ :: rs
  | .keys _ :: es, .recv :: rs => simp [SendEv.order, RecvEv.order] at ho
termination_by es.length + rs.length

theorem new_ok (ks : KeySchedule) (c : Cipher) (cl : Bool) : ∃ w, Fresh c.getCipherSuite w ∧
    RecordPayloadProtection.new ks c cl = .ok ⟨ks, c, w, cl, none⟩ ∧ WriteKeys.handshakeKeys ks c.getCipherSuite = .ok w := by
  obtain ⟨w, h1, h2⟩ := handshakeKeys_ok ks c.getCipherSuite
  refine ⟨w, h2, ?_, h1⟩
  unfold RecordPayloadProtection.new
  rw [h1]; rfl

end RecProof

/-- C19 for messages of at most 65518 bytes (the record limit of RFC 8446 is 2^14). Missing: longer messages, for which the length field is
truncated and the peer cannot read the record (`C19_false`). -/
theorem C19_duplex_partial : C19_upTo 65518 := by
  intro cs c hc ks client
  have hcs := suite_of_cipher hc
  obtain ⟨w, hf, h1, h2⟩ := new_ok ks c client
  obtain ⟨w', hf', h1', h2'⟩ := new_ok ks c (!client)
  rw [h2] at h2'
  simp only [Res.ok.injEq] at h2'
  subst h2'
  rw [hcs] at hf
  have gs : ∀ m, m < 2 ^ 64 → Good cs w.server m := fun m hm => ⟨⟨hf.1.1, hf.1.2.1⟩, by rw [hf.1.2.2]; simpa using hm⟩
  have gc : ∀ m, m < 2 ^ 64 → Good cs w.client m := fun m hm => ⟨⟨hf.2.1, hf.2.2.1⟩, by rw [hf.2.2.2]; simpa using hm⟩
  refine ⟨_, _, h1, h1', fun es rs l1 l2 he hr ho => ?_⟩
  refine duplex cs es rs _ _ hc rfl rfl rfl (by cases client <;> rfl) ?_ ?_ ?_ ?_ l1 l2 he hr ho <;> cases client <;>
    first | exact gs _ l1 | exact gc _ l1 | exact gs _ l2 | exact gc _ l2

example : (∀ e ∈ [SendEv.send .handshake [1, 2], .keys (TsHash.new .sha256), .send .applicationData [3]], e.ok 65518) ∧
    SendEv.order [SendEv.send .handshake [1, 2], .keys (TsHash.new .sha256), .send .applicationData [3]] =
      RecvEv.order [.recv, .say .alert [1, 0], .keys (TsHash.new .sha256), .recv] := by
  simp [SendEv.ok, SendEv.order, RecvEv.order]

/-- C19 for `encrypt_handshake`: the peer at the same position opens its record to a handshake message with exactly these bytes, and both are at the same
position again. -/
theorem C19_handshake_record (cs : CipherSuite) (c : Cipher) (hc : cs.getCipher = .ok c) (ks : KeySchedule) (client : Bool) (buf rest : Bytes)
    (hl : buf.length ≤ 65518) :
    ∃ a b wire a' r b', RecordPayloadProtection.new ks c client = .ok a ∧ RecordPayloadProtection.new ks c (!client) = .ok b ∧
      a.encryptHandshake buf = (.ok wire, a') ∧ Record.fromRaw (wire ++ rest) = .ok (wire.length, r) ∧
      b.decrypt r = (.ok (.handshake, buf), b') ∧ rKey b' = wKey a' := by
  have hcs := suite_of_cipher hc
  obtain ⟨w, hf, h1, h2⟩ := new_ok ks c client
  obtain ⟨w', hf', h1', h2'⟩ := new_ok ks c (!client)
  rw [h2] at h2'
  simp only [Res.ok.injEq] at h2'
  subst h2'
  rw [hcs] at hf
  have hw : wKey (⟨ks, c, w, client, none⟩ : RecordPayloadProtection) = rKey ⟨ks, c, w, !client, none⟩ := by cases client <;> rfl
  have hk : KeyOk cs (wKey (⟨ks, c, w, client, none⟩ : RecordPayloadProtection)) := by
    cases client
    · exact ⟨hf.1.1, hf.1.2.1⟩
    · exact ⟨hf.2.1, hf.2.2.1⟩
  have h0 : (wKey (⟨ks, c, w, client, none⟩ : RecordPayloadProtection)).sequenceNumber ≠ BitVec.allOnes 64 := by
    cases client
    · show w.server.sequenceNumber ≠ _
      rw [hf.1.2.2]; decide
    · show w.client.sequenceNumber ≠ _
      rw [hf.2.2.2]; decide
  obtain ⟨wire, a', e1, e2, e3⟩ := encrypt_spec cs ⟨ks, c, w, client, none⟩ hc hk h0 .handshake buf (by omega)
  obtain ⟨r, b', d1, _, _, _, d5, d6⟩ := decrypt_spec cs ⟨ks, c, w, !client, none⟩ hc (hw ▸ hk) (hw ▸ h0) .handshake (by decide) buf 0 wire rest (by omega)
    (hw ▸ e2)
  exact ⟨_, _, wire, a', r, b', h1, h1', e1, d1, d5, by rw [d6.r, e3.w, hw]⟩

example := C19_handshake_record .chacha20Poly1305Sha256 _ rfl ⟨⟨.sha256, []⟩, ⟨.sha256, []⟩, ⟨.sha256, []⟩⟩ true [20, 0, 0, 0] [] (by decide)

/-- C19 does not hold for a message of 65519 bytes: the header says 0 bytes and the receiver panics. -/
theorem C19_false : ¬ C19_statement := by
  intro h
  obtain ⟨a, b, ha, hb, hall⟩ := h .aes128GcmSha256 _ rfl ⟨⟨.sha256, []⟩, ⟨.sha256, []⟩, ⟨.sha256, []⟩⟩ true
  have hlen : (zeros 65519).length = 65519 := zeros_length _
  generalize zeros 65519 = big at hlen
  obtain ⟨wire, a', hs, hr⟩ := hall [.send .handshake big] [.recv] (by simp) (by simp) (by simp [SendEv.ok, hlen]) (by simp [RecvEv.ok]) rfl
  obtain ⟨w, hf, hn, _⟩ := new_ok ⟨⟨.sha256, []⟩, ⟨.sha256, []⟩, ⟨.sha256, []⟩⟩ (.gcm .aes128GcmSha256) true
  rw [hn] at ha
  simp only [Res.ok.injEq] at ha
  obtain ⟨w0, a0, he, ⟨ct, tag, hwe, _, hl1, hl2⟩, _⟩ := encrypt_spec .aes128GcmSha256 a (by rw [← ha]; rfl)
    (by rw [← ha]; exact ⟨hf.2.1, hf.2.2.1⟩) (by rw [← ha]; simp [wKey, RecordPayloadProtection.keys]; rw [hf.2.2.2]; decide) .handshake big
    (by rw [hlen]; omega)
  unfold runSender at hs
  rw [he] at hs
  simp only [runSender, Res.ok_bind, Res.ok.injEq, Prod.mk.injEq, List.append_nil] at hs
  have hr0 := hr []
  have hraw := fromRaw_header .applicationData 3#8 3#8 [] (ct ++ tag) (by decide)
  have hw : wire = [RecordType.applicationData.code, 3#8, 3#8, BitVec.ofNat 8 (([] : Bytes).length / 256), BitVec.ofNat 8 ([] : Bytes).length]
      ++ [] ++ (ct ++ tag) := by
    rw [← hs.1, hwe, hlen, beBytes2]
    simp [RecordType.code]
  rw [List.append_nil, hw] at hr0
  unfold runReceiver at hr0
  rw [hraw] at hr0
  simp [RecordPayloadProtection.decrypt] at hr0

/-! ### C20 -/

/-- The nonces of the first `n` records under a key. -/
def nonces : Key → Nat → Res TlsError (List Bytes)
  | _, 0 => .ok []
  | k, n + 1 => do
    let (nonce, k') ← k.getPerRecordNonce
    let rest ← nonces k' n
    .ok (nonce :: rest)

/-- The nonce of record `i` is the one RFC 8446 section 5.3 prescribes. -/
theorem nonces_eq (n : Nat) : ∀ k : Key, k.iv.length = 12 → k.sequenceNumber.toNat + n < 2 ^ 64 →
    nonces k n = .ok ((List.range n).map fun i => Tls13.nonce k.iv (k.sequenceNumber.toNat + i)) := by
  induction n with
  | zero => intros; rfl
  | succ n ih =>
    intro k hiv hs
    have hne : k.sequenceNumber ≠ BitVec.allOnes 64 := by
      intro e; rw [e] at hs; simp at hs; omega
    have hnx : (k.sequenceNumber + 1#64).toNat = k.sequenceNumber.toNat + 1 := by
      rw [BitVec.toNat_add]; simp only [BitVec.toNat_ofNat]; omega
    unfold nonces
    rw [nonce_eq k hiv hne]
    simp only [Res.ok_bind]
    rw [ih { k with sequenceNumber := k.sequenceNumber + 1#64 } hiv (by simp only [hnx]; omega)]
    simp only [Res.ok_bind, hnx, List.range_succ_eq_map, List.map_cons, List.map_map, Nat.add_zero]
    congr 2
    apply List.map_congr_left
    intro i _
    simp only [Function.comp]
    congr 1
    omega

/-- C20: a traffic key just derived yields, for every number of records below 2^64, that many nonces, the `i`-th one as RFC 8446
section 5.3 prescribes and no two equal. -/
theorem C20_nonces_distinct (secret : Hkdf) (keyLen : Nat) (k : Key) (hk : Key.fromHkdf secret keyLen 12 = .ok k) (n : Nat)
    (hn : n < 2 ^ 64) :
    ∃ l, nonces k n = .ok l ∧ l = (List.range n).map (Tls13.nonce k.iv) ∧ l.Nodup := by
  have hk' : k.iv.length = 12 ∧ k.sequenceNumber = 0#64 := by
    unfold Key.fromHkdf at hk
    obtain ⟨a, _, hk⟩ := Res.bind_eq_ok.1 hk
    obtain ⟨b, _, hk⟩ := Res.bind_eq_ok.1 hk
    split_ifs at hk with h
    simp only [Res.ok.injEq] at hk
    subst hk
    exact ⟨by simpa using h, rfl⟩
  refine ⟨_, nonces_eq n k hk'.1 (by rw [hk'.2]; simpa using hn), by simp [hk'.2], ?_⟩
  refine List.Nodup.map_on (fun i hi j hj e => ?_) List.nodup_range
  rw [List.mem_range] at hi hj
  rw [hk'.2] at e
  simpa using nonce_inj k.iv hk'.1 _ _ (by simp; omega) (by simp; omega) e

example : ∃ k, Key.fromHkdf ⟨.sha256, zeros 32⟩ 16 12 = .ok k := by
  obtain ⟨k, h, _⟩ := fromHkdf_ok ⟨.sha256, zeros 32⟩ 16 (by decide)
  exact ⟨k, h⟩

/-- C20, the limit: at sequence number 2^64 - 1 no further nonce is produced (the increment overflows and panics), so none is reused. -/
theorem C20_limit (k : Key) (h : k.sequenceNumber.toNat = 2 ^ 64 - 1) : k.getPerRecordNonce (ε := TlsError) = .panic := by
  unfold Key.getPerRecordNonce
  rw [if_pos]
  apply BitVec.eq_of_toNat_eq
  rw [h]; rfl

example := C20_limit ⟨[], [], [], BitVec.allOnes 64⟩ (by decide)

/-! ### C25, C26 -/

namespace RecProof

theorem ascii_append (a b : String) : ascii (a ++ b) = ascii a ++ ascii b := by simp [ascii]

theorem label_eq (label : String) (ctx : Bytes) (len : Nat) :
    getHkdfExpandLabel (ascii label) ctx len = Tls13.hkdfLabel len label ctx := by
  unfold getHkdfExpandLabel Tls13.hkdfLabel
  rw [ascii_append, beBytes2]
  have : ("tls13 " ++ label).length = 6 + (ascii label).length := by simp [ascii]; rfl
  rw [this]
  simp [beBytes]

theorem expandQ_eq (t : HashType) (prk : Bytes) (label : String) (ctx : Bytes) (len : Nat) (hp : prk.length ≤ 64)
    (hi : label.length + ctx.length < 2 ^ 50) (hlen : len ≤ 255 * 32) :
    (Hkdf.mk t prk).expandQ (getHkdfExpandLabel (ascii label) ctx len) len = .ok (Tls13.expandLabel (rfcHash t) prk label ctx len) ∧
      (Tls13.expandLabel (rfcHash t) prk label ctx len).length = len := by
  have hil : (Tls13.hkdfLabel len label ctx).length < 2 ^ 51 := by
    simp [Tls13.hkdfLabel, ascii]; rw [String.length_toList]; omega
  have hout : 32 ≤ (rfcHash t).out := by cases t <;> decide
  have := (C10_hkdf_expand t prk (Tls13.hkdfLabel len label ctx) len hp hil).1 (by omega)
  rw [label_eq]
  unfold Hkdf.expandQ
  rw [this.1]
  exact ⟨rfl, this.2⟩

end RecProof

/-- C25, secrets: for every shared secret and every transcript hash of ClientHello...ServerHello the handshake traffic secrets and the master
secret are those of RFC 8446 section 7.1. -/
theorem C25_secrets (t : HashType) (helloHash ecdhe : Bytes) (hh : helloHash.length = (rfcHash t).out) (he : ecdhe.length < 2 ^ 50) :
    KeySchedule.doKeySchedule t helloHash ecdhe = .ok
      { clientHandshakeTrafficSecret := ⟨t, Tls13.handshakeTrafficSecret (rfcHash t) ecdhe helloHash .client⟩
        serverHandshakeTrafficSecret := ⟨t, Tls13.handshakeTrafficSecret (rfcHash t) ecdhe helloHash .server⟩
        hkdfMasterSecret := ⟨t, Tls13.masterSecret (rfcHash t) ecdhe⟩ } := by
  have hsz : (rfcHash t).out = t.size := by cases t <;> rfl
  have hsz2 : t.size ≤ 48 := by cases t <;> decide
  have hempty : shaX t [] = (rfcHash t).H [] := by rw [rfcHash_eq]; exact shaX_eq t [] (by simp)
  have hel : ((rfcHash t).H []).length = t.size := by rw [← hempty]; exact shaX_length _ _
  have ext : ∀ salt ikm : Bytes, salt.length ≤ 64 → ikm.length < 2 ^ 50 →
      Hkdf.extract t salt ikm = ⟨t, hkdfExtract (rfcHash t) salt ikm⟩ ∧ (hkdfExtract (rfcHash t) salt ikm).length = t.size := by
    intro salt ikm h1 h2
    have := C10_hkdf_extract_partial t salt ikm (by omega) (by omega) (Or.inr (Or.inl h1))
    refine ⟨this, ?_⟩
    have h3 := congrArg (fun k => k.prk.length) this
    simp only [Hkdf.extract, hmac_length] at h3
    exact h3.symm
  have e1 := ext (zeros t.size) (zeros t.size) (by simp; omega) (by simp; omega)
  have d1 := expandQ_eq t (hkdfExtract (rfcHash t) (zeros t.size) (zeros t.size)) "derived" ((rfcHash t).H []) t.size
    (by rw [e1.2]; omega) (by rw [hel]; simp [String.length]; omega) (by omega)
  have e2 := ext _ ecdhe (by rw [d1.2]; omega) he
  have c1 := fun label (hl : label.length < 100) => expandQ_eq t _ label helloHash t.size (by rw [e2.2]; omega) (by rw [hh]; omega) (by omega)
  have d2 := expandQ_eq t _ "derived" ((rfcHash t).H []) t.size (by rw [e2.2]; omega) (by rw [hel]; simp [String.length]; omega) (by omega)
  have e3 := ext _ (zeros t.size) (by rw [d2.2]; omega) (by simp; omega)
  unfold KeySchedule.doKeySchedule
  simp only []
  rw [hempty, e1.1, d1.1]
  simp only [Res.ok_bind]
  rw [e2.1, (c1 "c hs traffic" (by decide)).1]
  simp only [Res.ok_bind]
  rw [(c1 "s hs traffic" (by decide)).1]
  simp only [Res.ok_bind]
  rw [d2.1]
  simp only [Res.ok_bind]
  rw [e3.1]
  simp only [Tls13.handshakeTrafficSecret, Tls13.handshakeSecret, Tls13.masterSecret, Tls13.deriveSecret, Tls13.earlySecret, hsz]

example := C25_secrets .sha384 (zeros 48) (zeros 32) rfl (by decide)

/-- A traffic key as RFC 8446 section 7.3 derives it from a secret, at sequence number zero. -/
def rfcKey (t : HashType) (cs : CipherSuite) (secret : Bytes) : Key :=
  { trafficSecret := secret
    key := Tls13.writeKey (rfcHash t) secret cs.getKeyAndIvLen.1
    iv := Tls13.writeIv (rfcHash t) secret 12
    sequenceNumber := 0#64 }

theorem fromHkdf_eq (t : HashType) (cs : CipherSuite) (secret : Bytes) (hp : secret.length ≤ 64) :
    Key.fromHkdf ⟨t, secret⟩ cs.getKeyAndIvLen.1 12 = .ok (rfcKey t cs secret) := by
  have h1 := expandQ_eq t secret "key" [] cs.getKeyAndIvLen.1 hp (by simp [String.length]) (le_trans (keyLen_le cs).1 (by decide))
  have h2 := expandQ_eq t secret "iv" [] 12 hp (by simp [String.length]) (by decide)
  unfold Key.fromHkdf
  rw [h1.1]
  simp only [Res.ok_bind]
  rw [h2.1]
  simp only [Res.ok_bind]
  rw [if_neg (by rw [h2.2]; decide)]
  rfl

/-- C25, keys: the handshake keys derived from a key schedule and the application keys derived from the master secret and the hash of the
transcript up to the server's Finished are those of RFC 8446 section 7.3. -/
theorem C25_traffic_keys (t : HashType) (cs : CipherSuite) (c s m : Bytes) (finishedHash : Bytes) (hc : c.length ≤ 64) (hs : s.length ≤ 64)
    (hm : m.length ≤ 64) (hh : finishedHash.length = (rfcHash t).out) :
    WriteKeys.handshakeKeys ⟨⟨t, c⟩, ⟨t, s⟩, ⟨t, m⟩⟩ cs = .ok { client := rfcKey t cs c, server := rfcKey t cs s } ∧
    WriteKeys.applicationKeysFromMasterSecret ⟨t, m⟩ finishedHash cs = .ok
      { client := rfcKey t cs (Tls13.deriveSecret (rfcHash t) m "c ap traffic" finishedHash)
        server := rfcKey t cs (Tls13.deriveSecret (rfcHash t) m "s ap traffic" finishedHash) } := by
  have hsz : (rfcHash t).out = t.size := by cases t <;> rfl
  have hsz2 : t.size ≤ 48 := by cases t <;> decide
  constructor
  · unfold WriteKeys.handshakeKeys
    simp only [(keyLen_le cs).2]
    rw [fromHkdf_eq t cs s hs]
    simp only [Res.ok_bind]
    rw [fromHkdf_eq t cs c hc]
    rfl
  · have e := fun label (hl : label.length < 100) =>
      expandQ_eq t m label finishedHash t.size hm (by rw [hh]; omega) (by omega)
    unfold WriteKeys.applicationKeysFromMasterSecret
    simp only [(keyLen_le cs).2]
    rw [(e "c ap traffic" (by decide)).1]
    simp only [Res.ok_bind]
    rw [fromHkdf_eq t cs _ (by rw [(e "c ap traffic" (by decide)).2]; omega)]
    simp only [Res.ok_bind]
    rw [(e "s ap traffic" (by decide)).1]
    simp only [Res.ok_bind]
    rw [fromHkdf_eq t cs _ (by rw [(e "s ap traffic" (by decide)).2]; omega)]
    simp only [Res.ok_bind, Tls13.deriveSecret, hsz]

example := C25_traffic_keys .sha384 .aes256GcmSha384 (zeros 48) (zeros 48) (zeros 48) (zeros 48) (by decide) (by decide) (by decide) rfl

/-- C25, Finished: the verify_data computed from a base key and a transcript is that of RFC 8446 section 4.4.4. -/
theorem C25_finished (secret : Bytes) (ts : TsHash) (hs : secret.length ≤ 64) :
    getVerifyDataForFinished ⟨ts.getType, secret⟩ ts = .ok (Tls13.verifyData (rfcHash ts.getType) secret ts.finalize) := by
  have hsz : (rfcHash ts.getType).out = ts.getType.size := by cases ts.getType <;> rfl
  have hsz2 : ts.getType.size ≤ 48 := by cases ts.getType <;> decide
  have h := expandQ_eq ts.getType secret "finished" [] ts.getType.size hs (by simp [String.length]) (by omega)
  have hfl : ts.finalize.length ≤ 48 := by cases ts <;> simp [TsHash.finalize] <;> decide
  unfold getVerifyDataForFinished
  simp only []
  rw [h.1]
  simp only [Res.mapErr, Res.ok_bind]
  rw [C09_hmac_partial _ _ _ (by rw [h.2]; omega) (by simp; omega) (Or.inr (Or.inl (by rw [h.2]; omega)))]
  simp [Tls13.verifyData, Tls13.finishedKey, hsz]

example : (zeros 32).length = (rfcHash .sha256).out ∧ (zeros 48).length = (rfcHash .sha384).out ∧ (zeros 48).length ≤ 64 := by decide

/-- C26: an endpoint acting as client and one acting as server, given the same key schedule and suite: the (nonce, key) pair the one takes for
its next outgoing record is the pair the other takes for its next incoming record, in both directions, with the handshake keys and, after both
derive them from the same transcript, with the application keys. -/
theorem C26_mirrored (t : HashType) (helloHash ecdhe : Bytes) (hh : helloHash.length = (rfcHash t).out) (he : ecdhe.length < 2 ^ 50)
    (c : Cipher) (ts ts' : TsHash) (hts : ts.finalize = ts'.finalize) :
    ∃ ks cl sv cl' sv', KeySchedule.doKeySchedule t helloHash ecdhe = .ok ks ∧
      RecordPayloadProtection.new ks c true = .ok cl ∧ RecordPayloadProtection.new ks c false = .ok sv ∧
      cl.generateApplicationKeys ts = .ok cl' ∧ sv.generateApplicationKeys ts' = .ok sv' ∧
      (∃ n k x y, cl.writeNonce = .ok (n, k, x) ∧ sv.readNonce = .ok (n, k, y)) ∧
      (∃ n k x y, sv.writeNonce = .ok (n, k, x) ∧ cl.readNonce = .ok (n, k, y)) ∧
      (∃ n k x y, cl'.writeNonce = .ok (n, k, x) ∧ sv'.readNonce = .ok (n, k, y)) ∧
      (∃ n k x y, sv'.writeNonce = .ok (n, k, x) ∧ cl'.readNonce = .ok (n, k, y)) := by
  obtain ⟨ks, hks⟩ : ∃ ks, KeySchedule.doKeySchedule t helloHash ecdhe = .ok ks := ⟨_, C25_secrets t helloHash ecdhe hh he⟩
  obtain ⟨w, hf, h1, h2⟩ := new_ok ks c true
  obtain ⟨w', hf', h1', h2'⟩ := new_ok ks c false
  rw [h2] at h2'
  simp only [Res.ok.injEq] at h2'
  subst h2'
  obtain ⟨v, g1, gf, g2⟩ := genKeys c.getCipherSuite ⟨ks, c, w, true, none⟩ rfl ts
  obtain ⟨v', g1', gf', g2'⟩ := genKeys c.getCipherSuite ⟨ks, c, w, false, none⟩ rfl ts'
  rw [← hts] at g1'
  simp only [] at g1 g1'
  rw [g1] at g1'
  simp only [Res.ok.injEq] at g1'
  subst g1'
  have ne : (0#64 : BitVec 64) ≠ BitVec.allOnes 64 := by decide
  have pair : ∀ p q : RecordPayloadProtection, wKey p = rKey q → (wKey p).iv.length = 12 → (wKey p).sequenceNumber = 0#64 →
      ∃ n k x y, p.writeNonce = .ok (n, k, x) ∧ q.readNonce = .ok (n, k, y) := by
    intro p q e1 e2 e3
    obtain ⟨x, hx, _⟩ := writeNonce_eq p e2 (by rw [e3]; exact ne)
    obtain ⟨y, hy, _⟩ := readNonce_eq q (by rw [← e1]; exact e2) (by rw [← e1, e3]; exact ne)
    exact ⟨_, _, x, y, hx, by rw [hy, e1]⟩
  exact ⟨ks, _, _, _, _, hks, h1, h1', g2, g2', pair _ _ rfl hf.2.2.1 hf.2.2.2, pair _ _ rfl hf.1.2.1 hf.1.2.2,
    pair _ _ rfl gf.2.2.1 gf.2.2.2, pair _ _ rfl gf.1.2.1 gf.1.2.2⟩

example := C26_mirrored .sha384 (zeros 48) (zeros 32) rfl (by decide) (.gcm .aes256GcmSha384) (TsHash.new .sha384) (TsHash.new .sha384) rfl

end ATLS
