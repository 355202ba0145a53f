import Verif.Model.ExampleServer
import Verif.Model.ExampleClient
import Verif.Props.Session
import Verif.Props.RfcServerExample
/-
C97: the example client fetches the page of the example server.
-/
namespace ATLS
open ATLS.Model ATLS.Spec FlowProof RecProof PairProof

/-- The visit of the example client to the example server. The client, before it reads anything, sends `hello` and prints nothing; the server, having read
only that, sends `fromServer`; the client, having read only that, sends `fromClient` and `request` besides, and prints nothing; the server, having read
`hello`, `fromClient` and `request`, sends `answer` besides; the client, having read `fromServer` and `answer`, prints the page. Data arrives as
`arriveC` and `arriveS` say: records of the handshake, and then those of the application. -/
def Fetches (name page : Bytes) (ce : ClientEnv) (se : ServerEnv) (crng srng : List Bytes) (arriveC arriveS : List Bytes → List Bytes → List Bytes → Prop) : Prop :=
  ∃ (hello : Bytes) (fromServer fromClient : List Bytes) (request answer : Bytes),
    fetch name ce crng ⟨[], [], []⟩ = ⟨hello, none⟩ ∧
    serveOne page ⟨se, srng, ⟨[hello], [], []⟩⟩ = .done fromServer.flatten ∧
    (∀ incoming, arriveC fromServer [] incoming → fetch name ce crng ⟨incoming, [], []⟩ = ⟨hello ++ fromClient.flatten ++ request, none⟩) ∧
    (∀ incoming, arriveS (hello :: fromClient) [request] incoming → serveOne page ⟨se, srng, ⟨incoming, [], []⟩⟩ = .done (fromServer.flatten ++ answer)) ∧
    (∀ incoming, arriveC fromServer [answer] incoming → fetch name ce crng ⟨incoming, [], []⟩ = ⟨hello ++ fromClient.flatten ++ request, some page⟩) ∧
    (∃ incoming, arriveC fromServer [] incoming) ∧ (∃ incoming, arriveS (hello :: fromClient) [request] incoming) ∧ ∃ incoming, arriveC fromServer [answer] incoming

/-- C97 for key shares that satisfy `S`, signatures whose numbers satisfy `P`, and the given arrival patterns. -/
def C97_for (S : Bytes → Prop) (P : Int → Prop) (arriveC arriveS : List Bytes → List Bytes → List Bytes → Prop) : Prop :=
  ∀ (name page : Bytes) (ce : ClientEnv) (se : ServerEnv) (crng srng : List Bytes) (q : Draws), Matching ce se → ce.config.serverName = some name → q.From se crng srng →
    S (publicShare q.clientKey) → S (publicShare q.serverKey) → Signed P q ce se → Utf8.IsText page → page.length ≤ 4074 →
    Fetches name page ce se crng srng arriveC arriveS

/-- C97 in full: all random values, and every way TCP may cut and join the records. The server sends the page only after it has the client's Finished, so
at the client handshake and data do not share a read; the client sends its request right after its Finished. -/
def C97_statement : Prop := C97_for (fun _ => True) (fun _ => True)
  (fun handshake data incoming => ∃ a b, incoming = a ++ b ∧ a.flatten = handshake.flatten ∧ b.flatten = data.flatten ∧ ∀ x ∈ incoming, x ≠ [])
  (fun handshake data incoming => incoming.flatten = (handshake ++ data).flatten ∧ ∀ x ∈ incoming, x ≠ [])

namespace FetchProof
open SessionProof

/-- The client after the handshake. -/
theorem client_end {ce : ClientEnv} {se : ServerEnv} {crng srng : List Bytes} {q : Draws} {r : Exchange} {rng : Rng} {auth ws cws : List Bytes}
    (hm : Matching ce se) (R : Runs ce se crng srng q r rng auth ws cws) {a : List Bytes} (hd : Tls13.Pieces 2048 [] (Tls13.plainRecord 22#8 r.sh :: r.ccs :: ws) a)
    (later : List Bytes) :
    ∃ c h p, ClientConnection.connect ce crng ⟨a ++ later, [], []⟩ = (.ok c, h) ∧ c.stream.written = r.chRec ++ cws.flatten ∧ c.stream.incoming = later ∧
      End r.x.cs c p (2 ^ 62) ∧ p.cipher = r.x.c ∧ wKey p = r.x.appKey r.transcript .client ∧ rKey p = r.x.appKey r.transcript .server := by
  obtain ⟨si, sf, hws, hsf⟩ := R.serverLast
  have hserver := R.server
  rw [hws] at hserver hd
  obtain ⟨c, hc, pc, cwire, c1, c2, c3, c4, c5, c6, c7, c8, c9, c10, _⟩ := ClientProof.stops_pieces (init := r.ccs :: si) (fin := sf) hm.other hserver hsf later hd
  have zC : (r.x.appKey r.transcript .client).sequenceNumber.toNat = 0 := rfl
  have zS : (r.x.appKey r.transcript .server).sequenceNumber.toNat = 0 := rfl
  refine ⟨c, hc, pc, ?_, ?_, c4, ⟨c6, by rw [c7]; exact R.ok.cipher, by rw [c9]; exact EarlyProof.appKey_sizes _ _ _, by rw [c10]; exact EarlyProof.appKey_sizes _ _ _,
    by rw [c9, zC]; omega, by rw [c10, zS]; omega, c5⟩, c7, c9, c10⟩
  · exact c1
  · rw [c3, sent_unique c2 R.sentClient, R.rec_]

/-- The server after the handshake, with whole records `tail` in the read that ended it. -/
theorem server_end {ce : ClientEnv} {se : ServerEnv} {crng srng : List Bytes} {q : Draws} {r : Exchange} {rng : Rng} {auth ws cws : List Bytes}
    (hm : Matching ce se) (R : Runs ce se crng srng q r rng auth ws cws) {pre : List (List Bytes)} {g tail : List Bytes} (hfl : pre.flatten ++ g = r.chRec :: cws)
    (hgne : g ≠ []) (hpre : ∀ g ∈ pre, g ≠ [] ∧ g.flatten.length ≤ 4096) (hg : (g ++ tail).flatten.length ≤ 4096) (htail : ∀ w ∈ tail, NoAlert w) (later : List Bytes) :
    ∃ s h p, ServerConnection.accept se srng ⟨pre.map List.flatten ++ (g ++ tail).flatten :: later, [], []⟩ = (.ok s, h) ∧
      s.stream.written = (Tls13.plainRecord 22#8 r.sh :: r.ccs :: ws).flatten ∧ s.stream.incoming = later ∧
      End r.x.cs s p (2 ^ 62) ∧ p.cipher = r.x.c ∧ wKey p = r.x.appKey r.transcript .server ∧ rKey p = r.x.appKey r.transcript .client := by
  have hsize := hm.size
  obtain ⟨ci, cf, hcws, hcf⟩ := SessionProof.last_not_ccs R.client.records (by rw [R.count]; simp) (by
    intro e
    have := R.count
    rw [e] at this
    simp at this)
  obtain ⟨lastS, cf', rfl⟩ : ∃ i f, g = i ++ [f] := by
    rcases List.eq_nil_or_concat g with h | ⟨i, f, h⟩
    · exact absurd h hgne
    · exact ⟨i, f, by rw [h, List.concat_eq_append]⟩
  rw [hcws, ← List.append_assoc, ← List.cons_append] at hfl
  obtain ⟨hspl, e⟩ := List.append_inj' hfl rfl
  obtain rfl : cf' = cf := by simpa using e
  have hclient := R.client
  rw [hcws] at hclient
  obtain ⟨s, hs, ps, swire, s1, s2, s3, s4, s5, s6, s7, s8, s9, s10, _⟩ := ServerProof.stops hm.prng (by omega) hclient hcf (tail := tail) later hspl hpre
    (by simpa using hg) htail
  have zC : (r.x.appKey r.transcript .client).sequenceNumber.toNat = 0 := rfl
  have zS : (r.x.appKey r.transcript .server).sequenceNumber.toNat = 0 := rfl
  refine ⟨s, hs, ps, ?_, ?_, s4, ⟨s6, by rw [s7]; exact R.ok.cipher, by rw [s9]; exact EarlyProof.appKey_sizes _ _ _, by rw [s10]; exact EarlyProof.appKey_sizes _ _ _,
    by rw [s9, zS]; omega, by rw [s10, zC]; omega, s5⟩, s7, s9, s10⟩
  · rw [← s1]
    simp
  · rw [s3, sent_unique s2 R.sentServer]
    simp [List.append_assoc]

theorem text_append {a b : Bytes} (ha : Utf8.IsText a) (hb : Utf8.IsText b) : Utf8.IsText (a ++ b) := by
  obtain ⟨cs, h1, rfl⟩ := ha
  obtain ⟨ds, h2, rfl⟩ := hb
  refine ⟨cs ++ ds, fun c hc => ?_, by simp⟩
  rcases List.mem_append.1 hc with h | h
  · exact h1 c h
  · exact h2 c h

theorem request_text {name : Bytes} (h : Utf8.IsText name) : utf8Valid ((pageRequest name).take ((pageRequest name).length - 4)) = true := by
  have hu : ∀ b, utf8Valid b = true ↔ Utf8.IsText b := fun b => Utf8Proof.utf8Valid_iff b
  have e : (pageRequest name).take ((pageRequest name).length - 4) = ascii "GET / HTTP/1.1\r\n" ++ (ascii "Host: " ++ name ++ ascii "\n") ++ ascii "User-Agent: AnotherTls/0.1" := by
    have e1 : pageRequest name = (ascii "GET / HTTP/1.1\r\n" ++ (ascii "Host: " ++ name ++ ascii "\n") ++ ascii "User-Agent: AnotherTls/0.1") ++ ascii "\r\n\r\n" := by
      unfold pageRequest
      rw [show ascii "User-Agent: AnotherTls/0.1\r\n" = ascii "User-Agent: AnotherTls/0.1" ++ ascii "\r\n" from by decide +kernel,
        show ascii "\r\n\r\n" = ascii "\r\n" ++ ascii "\r\n" from by decide +kernel]
      simp only [List.append_assoc]
    rw [e1]
    refine List.take_left' ?_
    rw [List.length_append (bs := ascii "\r\n\r\n"), show (ascii "\r\n\r\n").length = 4 from by decide +kernel]
    omega
  rw [e, hu]
  exact text_append (text_append ((hu _).1 (by decide +kernel)) (text_append (text_append ((hu _).1 (by decide +kernel)) h) ((hu _).1 (by decide +kernel))))
    ((hu _).1 (by decide +kernel))

theorem request_length (name : Bytes) : (pageRequest name).length = name.length + 53 := by
  have h : (ascii "GET / HTTP/1.1\r\n").length = 16 ∧ (ascii "Host: ").length = 6 ∧ (ascii "\n").length = 1 ∧ (ascii "User-Agent: AnotherTls/0.1\r\n").length = 28 ∧
    (ascii "\r\n").length = 2 := by decide +kernel
  obtain ⟨h1, h2, h3, h4, h5⟩ := h
  unfold pageRequest
  simp only [List.length_append, h1, h2, h3, h4, h5]
  omega

/-- Reading from a connection that gives nothing more. -/
theorem read_nothing {s : TlsStream} (h : s.stream.incoming = []) (bufLen : Nat) : ∃ s', s.tlsRead bufLen = (.err .brokenPipe, s') ∧ s'.stream.written = s.stream.written := by
  unfold TlsStream.tlsRead TlsStream.tcpRead
  rw [h]
  exact ⟨_, rfl, rfl⟩

/-- The record for one message. -/
theorem one_record {cs : CipherSuite} {c : Cipher} (hc : cs.getCipher = .ok c) {k : Key} (hk : KeyOk cs k) {m : Bytes} (hm : m.length ≤ 2 ^ 14) :
    ∃ w ct tag, w = Tls13.protectedHeader (m.length + 1) ++ ct ++ tag ∧ w.length = m.length + 22 ∧
      aead c k.key (Tls13.nonce k.iv 0) (m ++ [23#8]) (Tls13.protectedHeader (m.length + 1)) = some (ct, tag) ∧
      Tls13.Protected (aead c) k.key k.iv 0 23#8 m w ∧ ∀ v ∈ [w], NoAlert v := by
  obtain ⟨data, d1, d2⟩ := appRecords_exists hc hk 0 [m] (by simpa using hm)
  have d4 := appRecords_data (by simpa using hm) d1
  have d5 := EarlyProof.data_whole hc hk d4
  obtain ⟨ct, tag, rest, h1, rfl, h2⟩ := d1
  rw [Tls13.AppRecords] at h2
  subst h2
  obtain ⟨w, rest, e, d6, _⟩ := d4
  obtain ⟨rfl, _⟩ := List.cons.inj e
  cases d2 with
  | cons h _ => exact ⟨_, ct, tag, rfl, h, h1, d6, d5⟩

/-- What the client does after the handshake when nothing more arrives. -/
theorem fetch_waits {ce : ClientEnv} {crng : List Bytes} {sock : Socket} {name : Bytes} {cs : CipherSuite} {c : TlsStream} {h : Option ClientHandshake} {p : RecordPayloadProtection} {k : Key}
    (hn : name.length ≤ 3800) (h1 : ClientConnection.connect ce crng sock = (.ok c, h)) (h2 : c.stream.incoming = []) (h3 : End cs c p (2 ^ 62)) (h4 : wKey p = k)
    (h5 : k.sequenceNumber.toNat = 0) {ct tag : Bytes}
    (hs : aead p.cipher k.key (Tls13.nonce k.iv 0) (pageRequest name ++ [23#8]) (Tls13.protectedHeader ((pageRequest name).length + 1)) = some (ct, tag)) :
    fetch name ce crng sock = ⟨c.stream.written ++ (Tls13.protectedHeader ((pageRequest name).length + 1) ++ ct ++ tag), none⟩ := by
  subst h4
  have hl := request_length name
  obtain ⟨s1, p1, ct', tag', e1, e2, e3, e4, e5, e6, _⟩ := write_one (room := 2 ^ 62 - 1) (by simpa using h3) (m := pageRequest name) (by omega)
  rw [h5, hs] at e5
  obtain ⟨rfl, rfl⟩ := Prod.mk.inj (Option.some.inj e5)
  obtain ⟨s2, f1, f2⟩ := read_nothing (by rw [e3, h2]) 4096 (s := s1)
  unfold fetch
  rw [h1]
  simp only []
  rw [e1]
  simp only []
  rw [f1]
  simp only []
  rw [f2, e6]

/-- What the client does after the handshake when a page arrives. -/
theorem fetch_prints {ce : ClientEnv} {crng : List Bytes} {sock : Socket} {name page w : Bytes} {cs : CipherSuite} {c : TlsStream} {h : Option ClientHandshake} {p : RecordPayloadProtection}
    {k k' : Key} (hn : name.length ≤ 3800) (h1 : ClientConnection.connect ce crng sock = (.ok c, h)) (h2 : c.stream.incoming = [w]) (h3 : End cs c p (2 ^ 62)) (h4 : wKey p = k)
    (h5 : k.sequenceNumber.toNat = 0) (h6 : rKey p = k') (h7 : k'.sequenceNumber.toNat = 0) {ct tag : Bytes}
    (hs : aead p.cipher k.key (Tls13.nonce k.iv 0) (pageRequest name ++ [23#8]) (Tls13.protectedHeader ((pageRequest name).length + 1)) = some (ct, tag))
    (hw : Tls13.Protected (aead p.cipher) k'.key k'.iv 0 23#8 page w) (hwl : w.length = page.length + 22) (hp : page.length ≤ 4074) (ht : Utf8.IsText page) :
    fetch name ce crng sock = ⟨c.stream.written ++ (Tls13.protectedHeader ((pageRequest name).length + 1) ++ ct ++ tag), some page⟩ := by
  subst h4
  subst h6
  have hl := request_length name
  obtain ⟨s1, p1, ct', tag', e1, e2, e3, e4, e5, e6, e7, _⟩ := write_one (room := 2 ^ 62 - 1) (by simpa using h3) (m := pageRequest name) (by omega)
  rw [h5, hs] at e5
  obtain ⟨rfl, rfl⟩ := Prod.mk.inj (Option.some.inj e5)
  obtain ⟨s2, p2, f1, _, _, f2, _⟩ := read_one (room := 2 ^ 62 - 2) (rest := []) 4096 (by simpa using e2) (by rw [e4, e7, h7]; exact hw) (by omega) (by omega) (by rw [e3, h2])
  unfold fetch
  rw [h1]
  simp only []
  rw [e1]
  simp only []
  rw [f1]
  simp only []
  rw [f2, e6, if_pos ((Utf8Proof.utf8Valid_iff page).2 ht)]

/-- What the server does after the handshake when a request arrives. -/
theorem serve_answers {se : ServerEnv} {srng : List Bytes} {sock : Socket} {request page w : Bytes} {rest : List Bytes} {cs : CipherSuite} {s : TlsStream} {h : ServerHandshake}
    {p : RecordPayloadProtection} {k k' : Key} (h1 : ServerConnection.accept se srng sock = (.ok s, h)) (h2 : s.stream.incoming = w :: rest) (h3 : End cs s p (2 ^ 62))
    (h4 : wKey p = k) (h5 : k.sequenceNumber.toNat = 0) (h6 : rKey p = k') (h7 : k'.sequenceNumber.toNat = 0) {ct tag : Bytes}
    (hs : aead p.cipher k.key (Tls13.nonce k.iv 0) (page ++ [23#8]) (Tls13.protectedHeader (page.length + 1)) = some (ct, tag)) (hp : page.length ≤ 2 ^ 14)
    (hw : Tls13.Protected (aead p.cipher) k'.key k'.iv 0 23#8 request w) (hwl : w.length ≤ 4096) (hrl : request.length ≤ 4096) (hr4 : 4 ≤ request.length)
    (ht : utf8Valid (request.take (request.length - 4)) = true) :
    serveOne page ⟨se, srng, sock⟩ = .done (s.stream.written ++ (Tls13.protectedHeader (page.length + 1) ++ ct ++ tag)) := by
  subst h4
  subst h6
  obtain ⟨s1, p1, f1, f2, _, f4, f5, f6, _⟩ := read_one (room := 2 ^ 62 - 1) (rest := rest) 4096 (by simpa using h3) (by rw [h7]; exact hw) hrl hwl h2
  obtain ⟨s2, p2, ct', tag', e1, _, _, _, e5, e6, _⟩ := write_one (room := 2 ^ 62 - 2) (by simpa using f2) (m := page) hp
  rw [f5, f6, h5, hs] at e5
  obtain ⟨rfl, rfl⟩ := Prod.mk.inj (Option.some.inj e5)
  unfold serveOne
  simp only []
  rw [h1]
  simp only []
  rw [f1]
  simp only []
  rw [if_neg (by omega), if_neg (by rw [ht]; simp), e1]
  simp only []
  rw [e6, f4]

theorem flight_ne {a : Tls13.Seal} {key iv : Bytes} {seq : Nat} {contents records : List Bytes} (h : Tls13.ProtectedFlight a key iv seq contents records) : ∀ w ∈ records, w ≠ [] := by
  induction h with
  | nil seq => simp
  | ccs seq contents c w ws h1 h2 ih =>
    obtain ⟨v1, v2, _, rfl⟩ := h1
    simpa using ih
  | cons seq c cs w ws h1 h2 ih =>
    obtain ⟨ct, tag, n, _, rfl, _⟩ := h1
    simpa [Tls13.protectedHeader] using ih

theorem finished_short (x : Params) (side : Tls13.Side) (m : Bytes) : (x.sess.finished side m).length ≤ 52 := by
  rw [RfcProof.finished_length]
  have := out_le x.t
  omega

end FetchProof

/-- C97 when neither key share starts with a zero byte, the numbers of the signatures have a full 32 bytes, and the handshake records arrive grouped in any way
and then the data in a read of its own. Missing: the other random values (C33_false, C69_false) and the other arrival patterns, the likeliest of which is
`C97_lost`. -/
theorem C97_page_partial : C97_for (fun share => share.getD 0 0 ≠ 0) (fun v => 2 ^ 248 ≤ v)
    (fun handshake data incoming => ∃ a, Tls13.Pieces 2048 [] handshake a ∧ incoming = a ++ data)
    (fun handshake data incoming => ∃ a, Tls13.Delivers 4096 handshake a ∧ incoming = a ++ data) := by
  intro name page ce se crng srng q hm hname hq h1 h2 hsig ht hp
  obtain ⟨r, rng, auth, ws, cws, R⟩ := runs hm hq h1 h2 hsig
  have hsize := hm.size
  obtain ⟨hnu, hnl⟩ := hm.utf8 name hname
  have hlr := FetchProof.request_length name
  obtain ⟨request, ct, tag, rfl, a2, a3, a4, _⟩ := FetchProof.one_record R.ok.cipher (EarlyProof.appKey_sizes r.x r.transcript .client) (m := pageRequest name) (by omega)
  obtain ⟨answer, ct', tag', rfl, b2, b3, b4, _⟩ := FetchProof.one_record R.ok.cipher (EarlyProof.appKey_sizes r.x r.transcript .server) (m := page) (by omega)
  refine ⟨r.chRec, Tls13.plainRecord 22#8 r.sh :: r.ccs :: ws, cws, Tls13.protectedHeader ((pageRequest name).length + 1) ++ ct ++ tag, Tls13.protectedHeader (page.length + 1) ++ ct' ++ tag', ?_, ?_, ?_, ?_, ?_, ⟨_, _, R.arrives.choose_spec, rfl⟩,
    ⟨_, _, Tls13.delivers_single R.fromClient, rfl⟩, ⟨_, _, R.arrives.choose_spec, rfl⟩⟩
  · obtain ⟨h, e1, e2⟩ := C76_client_hello_first ce crng q.clientKey r.ch R.offered
    unfold fetch
    rw [e1]
    simp only []
    rw [e2, R.rec_]
  · obtain ⟨h, swire, e1, e2, e3⟩ := C75_server_flight_first se srng r rng (q.contextOf se) hm.prng (by omega) R.client.hello R.client.answered R.client.drawn
      R.client.flight (R.fromClient _ List.mem_cons_self)
    unfold serveOne
    simp only []
    rw [e1]
    simp only []
    rw [e3, sent_unique e2 R.sentServer]
    simp [List.append_assoc]
  · rintro _ ⟨a, hd, rfl⟩
    obtain ⟨c, h, p, e1, e2, e3, e4, e5, e6, e7⟩ := FetchProof.client_end hm R hd []
    rw [FetchProof.fetch_waits hnl e1 e3 e4 e6 rfl (by rw [e5]; exact a3), e2]
  · rintro _ ⟨a, ⟨groups, hfl, rfl, hgr⟩, rfl⟩
    obtain ⟨pre, g, rfl⟩ : ∃ i f, groups = i ++ [f] := by
      rcases List.eq_nil_or_concat groups with h | ⟨i, f, h⟩
      · rw [h] at hfl
        cases hfl
      · exact ⟨i, f, by rw [h, List.concat_eq_append]⟩
    obtain ⟨s, h, p, e1, e2, e3, e4, e5, e6, e7⟩ := FetchProof.server_end hm R (pre := pre) (g := g) (tail := []) (by rw [← hfl]; simp) (hgr g (by simp)).1
      (fun x hx => hgr x (by simp [hx])) (by simpa using (hgr g (by simp)).2) (by simp) [Tls13.protectedHeader ((pageRequest name).length + 1) ++ ct ++ tag]
    have e1' : ServerConnection.accept se srng ⟨(pre ++ [g]).map List.flatten ++ [Tls13.protectedHeader ((pageRequest name).length + 1) ++ ct ++ tag], [], []⟩ = (.ok s, h) := by
      rw [← e1]
      simp
    rw [FetchProof.serve_answers e1' e3 e4 e6 rfl e7 rfl (by rw [e5]; exact b3) (by omega) (by rw [e5]; exact a4) (by omega) (by omega) (by omega)
      (FetchProof.request_text ((Utf8Proof.utf8Valid_iff name).1 hnu)), e2]
  · rintro _ ⟨a, hd, rfl⟩
    obtain ⟨c, h, p, e1, e2, e3, e4, e5, e6, e7⟩ := FetchProof.client_end hm R hd [Tls13.protectedHeader (page.length + 1) ++ ct' ++ tag']
    rw [FetchProof.fetch_prints hnl e1 e3 e4 e6 rfl e7 rfl (by rw [e5]; exact a3) (by rw [e5]; exact b4) b2 hp ht, e2]

/-- C97, what happens when the server's read that has the client's Finished has the request too, which the client sends right after it: the request is dropped, the
server sends no answer, and the client, which has received all that the server sent, prints nothing. This holds for every pair as in C97 and every grouping of the
records before. -/
theorem C97_lost (name page : Bytes) (ce : ClientEnv) (se : ServerEnv) (crng srng : List Bytes) (q : Draws) (hm : Matching ce se) (hname : ce.config.serverName = some name)
    (hq : q.From se crng srng) (h1 : (publicShare q.clientKey).getD 0 0 ≠ 0) (h2 : (publicShare q.serverKey).getD 0 0 ≠ 0) (hsig : Signed (fun v => 2 ^ 248 ≤ v) q ce se) :
    ∃ (hello : Bytes) (fromServer fromClient : List Bytes) (request : Bytes),
      fetch name ce crng ⟨[], [], []⟩ = ⟨hello, none⟩ ∧ serveOne page ⟨se, srng, ⟨[hello], [], []⟩⟩ = .done fromServer.flatten ∧
      (∀ incoming, Tls13.Pieces 2048 [] fromServer incoming → fetch name ce crng ⟨incoming, [], []⟩ = ⟨hello ++ fromClient.flatten ++ request, none⟩) ∧
      (∀ (pre : List (List Bytes)) (g : List Bytes), pre.flatten ++ g = hello :: fromClient → g ≠ [] → (∀ g ∈ pre, g ≠ [] ∧ g.flatten.length ≤ 4096) →
        (g ++ [request]).flatten.length ≤ 4096 → serveOne page ⟨se, srng, ⟨pre.map List.flatten ++ [(g ++ [request]).flatten], [], []⟩⟩ = .done fromServer.flatten) ∧
      [] ∉ fromServer ∧ (hello ≠ [] ∧ hello.length ≤ 4096) ∧
      (se.config.clientCertCa = none → ∃ fin, fromClient = [fin] ∧ fin.length ≤ 74) ∧ request.length = name.length + 75 := by
  obtain ⟨r, rng, auth, ws, cws, R⟩ := runs hm hq h1 h2 hsig
  have hsize := hm.size
  obtain ⟨hnu, hnl⟩ := hm.utf8 name hname
  have hlr := FetchProof.request_length name
  obtain ⟨request, ct, tag, rfl, a2, a3, a4, a5⟩ := FetchProof.one_record R.ok.cipher (EarlyProof.appKey_sizes r.x r.transcript .client) (m := pageRequest name) (by omega)
  refine ⟨r.chRec, Tls13.plainRecord 22#8 r.sh :: r.ccs :: ws, cws, Tls13.protectedHeader ((pageRequest name).length + 1) ++ ct ++ tag, ?_, ?_, ?_, ?_,
    R.nonempty, ⟨by rw [R.rec_]; simp [Tls13.plainRecord], R.fromClient _ List.mem_cons_self⟩, ?_, by omega⟩
  · obtain ⟨h, e1, e2⟩ := C76_client_hello_first ce crng q.clientKey r.ch R.offered
    unfold fetch
    rw [e1]
    simp only []
    rw [e2, R.rec_]
  · obtain ⟨h, swire, e1, e2, e3⟩ := C75_server_flight_first se srng r rng (q.contextOf se) hm.prng (by omega) R.client.hello R.client.answered R.client.drawn
      R.client.flight (R.fromClient _ List.mem_cons_self)
    unfold serveOne
    simp only []
    rw [e1]
    simp only []
    rw [e3, sent_unique e2 R.sentServer]
    simp [List.append_assoc]
  · intro a hd
    obtain ⟨c, h, p, e1, e2, e3, e4, e5, e6, e7⟩ := FetchProof.client_end hm R hd []
    rw [List.append_nil] at e1
    rw [FetchProof.fetch_waits hnl e1 e3 e4 e6 rfl (by rw [e5]; exact a3), e2]
  · intro pre g hfl hg hpre hgl
    obtain ⟨s, h, p, e1, e2, e3, _⟩ := FetchProof.server_end hm R hfl hg hpre hgl a5 []
    obtain ⟨s', f1, f2⟩ := FetchProof.read_nothing e3 4096
    unfold serveOne
    simp only []
    rw [e1]
    simp only []
    rw [f1]
    simp only []
    rw [f2, e2]
  · intro hca
    have hauth : auth = [] := by
      have h := R.client.proof
      unfold ClientAuth at h
      rw [hca] at h
      exact h
    have hs := R.sentClient
    have hcount := R.count
    have hf : (r.x.sess.finished .client (r.transcript ++ auth.flatten)).length ≤ 52 := FetchProof.finished_short _ _ _
    rw [hauth, List.nil_append] at hs
    rw [hauth] at hcount hf
    obtain ⟨ws', e1, _, e3⟩ := sent_flight R.ok hs (by simp) (by
      intro m hm'
      rw [List.mem_singleton.1 hm']
      omega)
    obtain ⟨fin, rfl⟩ := List.length_eq_one_iff.1 hcount
    refine ⟨fin, rfl, ?_⟩
    cases e3 with
    | cons h1 h2 =>
      cases h2
      have := congrArg List.length e1
      simp at this
      omega

/-- C97 is about something: the pages of the two example servers, fetched without and with client authentication. -/
theorem C97_example : (∃ kc ks : Int, Fetches (ascii "anothertls.local") helloWorld { exampleClient (some (ascii "anothertls.local")) with nonces := [kc] }
      { exampleServer none (some (ascii "anothertls.local")) with nonces := [ks] } [zeros 100, zeros 100, zeros 100] [zeros 100, oneRead, zeros 100]
      (fun handshake data incoming => ∃ a, Tls13.Pieces 2048 [] handshake a ∧ incoming = a ++ data)
      (fun handshake data incoming => ∃ a, Tls13.Delivers 4096 handshake a ∧ incoming = a ++ data)) ∧
    ∃ (ca : Certificate) (kc ks : Int), Fetches (ascii "anothertls.local") helloAdmin { exampleClient (some (ascii "anothertls.local")) with nonces := [kc] }
      { exampleServer (some ca) (some (ascii "anothertls.local")) with nonces := [ks] } [zeros 100, zeros 100, zeros 100] [zeros 100, oneRead, zeros 100]
      (fun handshake data incoming => ∃ a, Tls13.Pieces 2048 [] handshake a ∧ incoming = a ++ data)
      (fun handshake data incoming => ∃ a, Tls13.Delivers 4096 handshake a ∧ incoming = a ++ data) := by
  obtain ⟨x, hx, hs⟩ := own_identity
  have hu : ∀ b, utf8Valid b = true ↔ Utf8.IsText b := fun b => Utf8Proof.utf8Valid_iff b
  constructor
  · obtain ⟨q, hq, h1, h2⟩ := example_draws none (some (ascii "anothertls.local"))
    obtain ⟨kc, ks, g1, g2, g3⟩ := signed_exists _ _ _ _ q (example_matching x hx hs none (.inl rfl)) hq (h1 ▸ example_shares.1) (h2 ▸ example_shares.2)
    exact ⟨kc, ks, C97_page_partial _ _ _ _ _ _ q g1 rfl g2 (h1 ▸ example_shares.1) (h2 ▸ example_shares.2) g3 ((hu _).1 (by decide +kernel)) (by decide +kernel)⟩
  · obtain ⟨q, hq, h1, h2⟩ := example_draws (some ⟨Spec.X509.certificate ownTbs ownR ownS, some x⟩) (some (ascii "anothertls.local"))
    obtain ⟨kc, ks, g1, g2, g3⟩ := signed_exists _ _ _ _ q (example_matching x hx hs _ (.inr rfl)) hq (h1 ▸ example_shares.1) (h2 ▸ example_shares.2)
    exact ⟨_, kc, ks, C97_page_partial _ _ _ _ _ _ q g1 rfl g2 (h1 ▸ example_shares.1) (h2 ▸ example_shares.2) g3 ((hu _).1 (by decide +kernel)) (by decide +kernel)⟩

/-- Of no pair as in `C97_page_partial` without client authentication is it true that the page arrives however TCP cuts and joins the records: the client's
Finished and its request may arrive in one read. -/
theorem C97_cut_lost (name page : Bytes) (ce : ClientEnv) (se : ServerEnv) (crng srng : List Bytes) (q : Draws) (hm : Matching ce se) (hname : ce.config.serverName = some name)
    (hca : se.config.clientCertCa = none) (hq : q.From se crng srng) (h1 : (publicShare q.clientKey).getD 0 0 ≠ 0) (h2 : (publicShare q.serverKey).getD 0 0 ≠ 0)
    (hsig : Signed (fun v => 2 ^ 248 ≤ v) q ce se) :
    ¬ Fetches name page ce se crng srng
      (fun handshake data incoming => ∃ a b, incoming = a ++ b ∧ a.flatten = handshake.flatten ∧ b.flatten = data.flatten ∧ ∀ x ∈ incoming, x ≠ [])
      (fun handshake data incoming => incoming.flatten = (handshake ++ data).flatten ∧ ∀ x ∈ incoming, x ≠ []) := by
  intro hst
  obtain ⟨hello, fromServer, fromClient, request, a0, a1, a2, a3, a4, a5, a6, a7⟩ := C97_lost name page ce se crng srng q hm hname hq h1 h2 hsig
  obtain ⟨hello', fromServer', fromClient', request', answer, b1, b2, b3, b4, b5, _⟩ := hst
  have hn := (hm.utf8 name hname).2
  obtain ⟨fin, rfl, hfin⟩ := a6 hca
  rw [a0] at b1
  obtain rfl : hello = hello' := (Fetched.mk.inj b1).1
  rw [a1] at b2
  have hfs : fromServer.flatten = fromServer'.flatten := Served.done.inj b2
  obtain ⟨reads, hreads⟩ := Tls13.pieces_exist (cap := 2048) (by decide) fromServer a4
  have hbytes : reads.flatten = fromServer.flatten := hreads.bytes
  have c1 := a2 _ hreads
  have c2 := b3 reads ⟨reads, [], by simp, hbytes.trans hfs, rfl, hreads.nonempty a4⟩
  rw [c1] at c2
  have c3 := (Fetched.mk.inj c2).1
  rw [List.append_assoc, List.append_assoc] at c3
  have c3 := List.append_cancel_left c3
  have c4 := a3 [[hello]] [fin] (by simp) (by simp) (by simp; exact a5.2) (by simp; omega)
  have c5 := b4 ([[hello]].map List.flatten ++ [([fin] ++ [request]).flatten]) ⟨by
    simp only [List.flatten_cons, List.flatten_nil, List.map_cons, List.map_nil, List.append_nil, List.cons_append, List.nil_append, List.flatten_append] at c3 ⊢
    rw [c3], by
    intro w hw
    simp only [List.map_cons, List.map_nil, List.flatten_cons, List.flatten_nil, List.append_nil, List.cons_append, List.nil_append, List.mem_cons, List.not_mem_nil, or_false] at hw
    rcases hw with rfl | rfl
    · exact a5.1
    · intro e
      have := congrArg List.length e
      rw [List.length_append, List.length_nil] at this
      omega⟩
  rw [c4] at c5
  have c6 := Served.done.inj c5
  rw [← hfs] at c6
  obtain rfl : answer = [] := by simpa using c6.symm
  have c7 := b5 reads ⟨reads, [], by simp, hbytes.trans hfs, rfl, hreads.nonempty a4⟩
  rw [c1] at c7
  cases (Fetched.mk.inj c7).2

/-- Even for key shares and signatures as in `C97_page_partial` it is false that the page arrives however TCP cuts and joins the records. -/
theorem C97_any_cut_false : ¬ C97_for (fun share => share.getD 0 0 ≠ 0) (fun v => 2 ^ 248 ≤ v)
    (fun handshake data incoming => ∃ a b, incoming = a ++ b ∧ a.flatten = handshake.flatten ∧ b.flatten = data.flatten ∧ ∀ x ∈ incoming, x ≠ [])
    (fun handshake data incoming => incoming.flatten = (handshake ++ data).flatten ∧ ∀ x ∈ incoming, x ≠ []) := by
  intro hst
  obtain ⟨x, hx, hs⟩ := own_identity
  obtain ⟨q, hq, h1, h2⟩ := example_draws none (some (ascii "anothertls.local"))
  obtain ⟨kc, ks, g1, g2, g3⟩ := signed_exists _ _ _ _ q (example_matching x hx hs none (.inl rfl)) hq (h1 ▸ example_shares.1) (h2 ▸ example_shares.2)
  exact C97_cut_lost _ helloWorld _ _ _ _ q g1 rfl rfl g2 (h1 ▸ example_shares.1) (h2 ▸ example_shares.2) g3
    (hst _ helloWorld _ _ _ _ q g1 rfl g2 (h1 ▸ example_shares.1) (h2 ▸ example_shares.2) g3 ((Utf8Proof.utf8Valid_iff _).1 (by decide +kernel)) (by decide +kernel))

theorem C97_false : ¬ C97_statement := by
  intro h
  refine C97_any_cut_false fun name page ce se crng srng q hm hn hq _ _ hs => h name page ce se crng srng q hm hn hq trivial trivial ⟨?_, ?_⟩
  · obtain ⟨a, sig, b, _⟩ := hs.server
    exact ⟨a, sig, b, trivial, trivial⟩
  · intro flight ca cert key c1 c2 c3 c4
    obtain ⟨a, sig, b, _⟩ := hs.client flight ca cert key c1 c2 c3 c4
    exact ⟨a, sig, b, trivial, trivial⟩

end ATLS
