import Verif.Proof.Session
import Verif.Props.Early
/-
C77: a whole session between a client and a server of the library, from the hellos to the application data in both directions.
-/
namespace ATLS
open ATLS.Model ATLS.Spec FlowProof RecProof PairProof

/-- A whole session. The client, before it reads anything, sends `hello`; the server, having read only that, sends `fromServer`. When the client's
socket delivers `fromServer` and then `down` as `arriveC` says, and the server's `hello :: fromClient` and then `up` as `arriveS` says, then `connect`
and `accept` succeed; the client's calls `opsC` and the server's calls `opsS` succeed and their reads return what the other end wrote, in order; and what
the two ends have sent are these records. -/
def Session (ce : ClientEnv) (se : ServerEnv) (crng srng : List Bytes) (bufLen : Nat) (opsC opsS : List Op) (arriveC arriveS : List Bytes → List Bytes → List Bytes → Prop) : Prop :=
  ∃ (hello : Bytes) (fromServer fromClient up down : List Bytes),
    (∃ h, ClientConnection.connect ce crng ⟨[], [], []⟩ = (.err .brokenPipe, some h) ∧ h.stream.stream.written = hello) ∧
    (∃ h, ServerConnection.accept se srng ⟨[hello], [], []⟩ = (.err .brokenPipe, h) ∧ h.stream.stream.written = fromServer.flatten) ∧
    (∃ incoming, arriveC fromServer down incoming) ∧ (∃ incoming, arriveS (hello :: fromClient) up incoming) ∧
    ∀ inC inS, arriveC fromServer down inC → arriveS (hello :: fromClient) up inS →
      ∃ c hc s hs c' s', ClientConnection.connect ce crng ⟨inC, [], []⟩ = (.ok c, hc) ∧ ServerConnection.accept se srng ⟨inS, [], []⟩ = (.ok s, hs) ∧
        perform bufLen c opsC = .ok ((Op.payloads opsS).take (Op.reads opsC), c') ∧ c'.stream.written = hello ++ fromClient.flatten ++ up.flatten ∧
        perform bufLen s opsS = .ok ((Op.payloads opsC).take (Op.reads opsS), s') ∧ s'.stream.written = fromServer.flatten ++ down.flatten

/-- C77 for key shares that satisfy `S`, signatures whose numbers satisfy `P`, payloads of at most `bound` bytes and the given arrival patterns. -/
def C77_for (S : Bytes → Prop) (P : Int → Prop) (bound : Nat) (arriveC arriveS : List Bytes → List Bytes → List Bytes → Prop) : Prop :=
  ∀ (ce : ClientEnv) (se : ServerEnv) (crng srng : List Bytes) (q : Draws), Matching ce se → q.From se crng srng →
    S (publicShare q.clientKey) → S (publicShare q.serverKey) → Signed P q ce se →
    ∀ (bufLen : Nat) (opsC opsS : List Op), (∀ m ∈ Op.payloads opsC ++ Op.payloads opsS, m.length ≤ bound ∧ m.length ≤ bufLen) →
      Op.reads opsC ≤ (Op.payloads opsS).length → Op.reads opsS ≤ (Op.payloads opsC).length → opsC.length + opsS.length < 2 ^ 62 →
      Session ce se crng srng bufLen opsC opsS arriveC arriveS

/-- C77 in full: all random values, payloads up to 2^14 bytes, and every way TCP may cut and join the records. The server sends data only after it has
the client's Finished, so at the client handshake and data do not share a read. -/
def C77_statement : Prop := C77_for (fun _ => True) (fun _ => True) (2 ^ 14)
  (fun handshake data incoming => ∃ a b, incoming = a ++ b ∧ a.flatten = handshake.flatten ∧ b.flatten = data.flatten ∧ ∀ x ∈ incoming, x ≠ [])
  (fun handshake data incoming => incoming.flatten = (handshake ++ data).flatten ∧ ∀ x ∈ incoming, x ≠ [])

namespace SessionProof

theorem last_not_ccs {a : Tls13.Seal} {key iv : Bytes} {seq : Nat} {contents ws : List Bytes} (h : Tls13.ProtectedFlight a key iv seq contents ws) (hl : ws.length = contents.length)
    (hne : ws ≠ []) : ∃ init fin, ws = init ++ [fin] ∧ ¬ ∃ c, Tls13.IsRecord 20#8 c fin := by
  rcases List.eq_nil_or_concat ws with rfl | ⟨init, fin, hw⟩
  · exact absurd rfl hne
  rw [List.concat_eq_append] at hw
  subst hw
  exact ⟨init, fin, rfl, (PairProof.no_ccs h).2 hl fin (by simp)⟩

theorem payloads_le (ops : List Op) : (Op.payloads ops).length + Op.reads ops = ops.length := by
  induction ops with
  | nil => rfl
  | cons o l ih => cases o <;> simp [Op.payloads, Op.reads] <;> omega

end SessionProof

/-- C77 when neither key share starts with a zero byte, the numbers of the signatures have a full 32 bytes, payloads have at most 4074 bytes, and the
handshake records arrive grouped in any way and then the data one record per read. Missing: the other random values (C33_false, C69_false), larger
payloads and the other arrival patterns (C23_false, C46_false, C47_false). -/
theorem C77_session_partial : C77_for (fun share => share.getD 0 0 ≠ 0) (fun v => 2 ^ 248 ≤ v) 4074
    (fun handshake data incoming => ∃ a, Tls13.Pieces 2048 [] handshake a ∧ incoming = a ++ data)
    (fun handshake data incoming => ∃ a, Tls13.Delivers 4096 handshake a ∧ incoming = a ++ data) := by
  intro ce se crng srng q hm hq h1 h2 hsig bufLen opsC opsS hops hrC hrS hlen
  have hsize := hm.size
  obtain ⟨r, rng, auth, ws, cws, R⟩ := runs hm hq h1 h2 hsig
  have hrec := R.rec_
  have hxc := R.ok.cipher
  have hkC := EarlyProof.appKey_sizes r.x r.transcript .client
  have hkS := EarlyProof.appKey_sizes r.x r.transcript .server
  have hbC : ∀ m ∈ Op.payloads opsC, m.length ≤ 4074 ∧ m.length ≤ bufLen := fun m hm' => hops m (by simp [hm'])
  have hbS : ∀ m ∈ Op.payloads opsS, m.length ≤ 4074 ∧ m.length ≤ bufLen := fun m hm' => hops m (by simp [hm'])
  have hC14 : ∀ m ∈ Op.payloads opsC, m.length ≤ 2 ^ 14 := fun m hm' => by have := (hbC m hm').1; omega
  have hS14 : ∀ m ∈ Op.payloads opsS, m.length ≤ 2 ^ 14 := fun m hm' => by have := (hbS m hm').1; omega
  obtain ⟨up, u1, u2⟩ := SessionProof.appRecords_exists hxc hkC 0 (Op.payloads opsC) hC14
  obtain ⟨down, d1, d2⟩ := SessionProof.appRecords_exists hxc hkS 0 (Op.payloads opsS) hS14
  refine ⟨r.chRec, Tls13.plainRecord 22#8 r.sh :: r.ccs :: ws, cws, up, down, ?_, ?_, ?_, ?_, ?_⟩
  · rw [hrec]
    exact C76_client_hello_first ce crng q.clientKey r.ch R.offered
  · obtain ⟨h, swire, a1, a2, a3⟩ := C75_server_flight_first se srng r rng (q.contextOf se) hm.prng (by omega) R.client.hello R.client.answered R.client.drawn
      R.client.flight (R.fromClient _ List.mem_cons_self)
    refine ⟨h, a1, ?_⟩
    rw [a3, sent_unique a2 R.sentServer]
    simp [List.append_assoc]
  · exact ⟨_, _, R.arrives.choose_spec, rfl⟩
  · exact ⟨_, _, Tls13.delivers_single R.fromClient, rfl⟩
  rintro _ _ ⟨a, hdC, rfl⟩ ⟨b, hdS, rfl⟩
  -- the client
  obtain ⟨si, sf, hws, hsf⟩ := R.serverLast
  have hserver := R.server
  rw [hws] at hserver hdC
  obtain ⟨c, hc, pc, cwire, c1, c2, c3, c4, c5, c6, c7, c8, c9, c10, _⟩ := ClientProof.stops_pieces (init := r.ccs :: si) (fin := sf) hm.other hserver hsf down hdC
  -- the server
  obtain ⟨ci, cf, hcws, hcf⟩ := SessionProof.last_not_ccs R.client.records (by rw [R.count]; simp) (by
    intro e
    have := R.count
    rw [e] at this
    simp at this)
  obtain ⟨gS, hflS, rfl, hgS⟩ := hdS
  obtain ⟨preS, lastS, rfl, hsplS⟩ := EarlyProof.last_group (a := r.chRec :: ci) (fin := cf) (by rw [hflS, hcws]; rfl) (fun g hg => (hgS g hg).1)
  have hclient := R.client
  rw [hcws] at hclient
  obtain ⟨s, hs, ps, swire, s1, s2, s3, s4, s5, s6, s7, s8, s9, s10, _⟩ := ServerProof.stops hm.prng (by omega) hclient hcf (tail := []) up hsplS (fun a ha => hgS a (by simp [ha]))
    (hgS (lastS ++ [cf]) (by simp)).2 (by simp)
  have zC : (r.x.appKey r.transcript .client).sequenceNumber.toNat = 0 := rfl
  have zS : (r.x.appKey r.transcript .server).sequenceNumber.toNat = 0 := rfl
  have hlC := SessionProof.payloads_le opsC
  have hlS := SessionProof.payloads_le opsS
  obtain ⟨c', rc, e1, e2, e3⟩ := SessionProof.perform_spec (cs := r.x.cs) bufLen opsC (Op.payloads opsS) down [] c pc opsC.length
    ⟨c6, by rw [c7]; exact hxc, by rw [c9]; exact hkC, by rw [c10]; exact hkS, by rw [c9, zC]; omega, by rw [c10, zS]; omega, c5⟩ le_rfl
    (by rw [c7, c10, zS]; exact SessionProof.appRecords_data hS14 d1) (fun m hm' => (hbS m hm').2) (forall2_le d2 (fun m hm' => by have := (hbS m hm').1; omega))
    (by rw [c4]; simp) hrC hC14
  obtain ⟨s', rs, f1, f2, f3⟩ := SessionProof.perform_spec (cs := r.x.cs) bufLen opsS (Op.payloads opsC) up [] s ps opsS.length
    ⟨s6, by rw [s7]; exact hxc, by rw [s9]; exact hkS, by rw [s10]; exact hkC, by rw [s9, zS]; omega, by rw [s10, zC]; omega, s5⟩ le_rfl
    (by rw [s7, s10, zC]; exact SessionProof.appRecords_data hC14 u1) (fun m hm' => (hbC m hm').2) (forall2_le u2 (fun m hm' => by have := (hbC m hm').1; omega))
    (by rw [s4]; simp) hrS hS14
  rw [c7, c9, zC] at e3
  rw [s7, s9, zS] at f3
  refine ⟨c, hc, s, hs, c', s', ?_, ?_, e1, ?_, f1, ?_⟩
  · exact c1
  · rw [← s1]
    simp
  · rw [e2, c3, sent_unique c2 R.sentClient, SessionProof.appRecords_unique e3 u1, hrec]
  · rw [f2, s3, sent_unique s2 R.sentServer, SessionProof.appRecords_unique f3 d1]
    simp [List.append_assoc]

/-- C77 is about something: with client authentication, the client writes "ping" and reads, the server reads, writes "pong" and writes again. -/
theorem C77_example : ∃ (ca : Certificate) (kc ks : Int), Session { exampleClient (some (ascii "anothertls.local")) with nonces := [kc] }
    { exampleServer (some ca) (some (ascii "anothertls.local")) with nonces := [ks] } [zeros 100, zeros 100, zeros 100] [zeros 100, oneRead, zeros 100] 16
    [.write (ascii "ping"), .read] [.read, .write (ascii "pong"), .write (ascii "bye")]
    (fun handshake data incoming => ∃ a, Tls13.Pieces 2048 [] handshake a ∧ incoming = a ++ data)
    (fun handshake data incoming => ∃ a, Tls13.Delivers 4096 handshake a ∧ incoming = a ++ data) := by
  obtain ⟨x, hx, hs⟩ := own_identity
  obtain ⟨q, hq, h1, h2⟩ := example_draws (some ⟨Spec.X509.certificate ownTbs ownR ownS, some x⟩) (some (ascii "anothertls.local"))
  obtain ⟨kc, ks, g1, g2, g3⟩ := signed_exists _ _ _ _ q (example_matching x hx hs _ (.inr rfl)) hq (h1 ▸ example_shares.1) (h2 ▸ example_shares.2)
  exact ⟨_, kc, ks, C77_session_partial _ _ _ _ q g1 g2 (h1 ▸ example_shares.1) (h2 ▸ example_shares.2) g3 16 _ _ (by decide +kernel) (by decide) (by decide) (by decide)⟩

end ATLS
