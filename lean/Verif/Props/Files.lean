import Verif.Model.Files
import Verif.Spec.KeyFile
import Verif.Props.Codec
import Mathlib.Data.List.Induction
/-
C79, C80: certificates and private keys read from files.
-/
namespace ATLS
open ATLS.Model ATLS.Spec

/-! ### Blocks of a file -/

namespace FilesProof

/-- What a file of blocks is read as. -/
theorem content_of {text : List Char} {blocks : List (String × Bytes)} (h : PemFile ['\n'] text blocks) (hne : blocks ≠ []) :
    pemFile (some text) = .ok (blocks.map fun b => (b.1.toList, b.2)).reverse := by
  obtain ⟨bs, tail, rfl, h2, h3, h4⟩ := h
  rw [← h2]
  refine C05_pem_roundtrip bs ?_ tail h4 h3
  rintro rfl
  rw [List.map_nil, eq_comm, List.map_eq_nil_iff] at h2
  exact hne h2

theorem lookup_last (title : String) : ∀ (blocks : List (String × Bytes)),
    ((blocks.map fun b => (b.1.toList, b.2)).reverse).lookup title.toList = (titled title blocks).getLast?
  | [] => rfl
  | blocks => by
    induction blocks using List.reverseRecOn with
    | nil => rfl
    | append_singleton bs b ih =>
      rw [List.map_append, List.map_singleton, List.reverse_append, List.reverse_singleton, List.singleton_append, List.lookup_cons, titled,
        List.filter_append, List.map_append]
      by_cases hb : b.1 = title
      · rw [hb, beq_self_eq_true]
        simp [hb]
      · have : (title.toList == b.1.toList) = false := by
          rw [beq_eq_false_iff_ne]
          intro he
          exact hb (String.toList_inj.1 he).symm
        rw [this]
        rw [List.filter_cons_of_neg (by simpa using hb), List.filter_nil, List.map_nil, List.append_nil]
        exact ih

/-- The block found under a title is the last one with that title. -/
theorem block_of {ε : Type} {text : List Char} {blocks : List (String × Bytes)} (h : PemFile ['\n'] text blocks) (hne : blocks ≠ []) (title : String) :
    (pemBlock (some text) title : Res ε (Option Bytes)) = .ok (titled title blocks).getLast? := by
  unfold pemBlock
  rw [content_of h hne]
  simp only []
  rw [lookup_last]

theorem integer_one : Der.integer 1 = [2#8, 1#8, 1#8] := by decide

theorem tlv_short (t : Byte) (b : Bytes) (h : b.length < 128) : Der.tlv t b = t :: BitVec.ofNat 8 b.length :: b := by
  unfold Der.tlv Der.length
  rw [if_pos h]
  rfl

theorem fields_le (curve publicKey : Option Bytes) (h1 : ∀ o, curve = some o → o.length ≤ 8) (h2 : ∀ p, publicKey = some p → p.length ≤ 65) :
    (Sec1.fields curve publicKey).length ≤ 82 := by
  have a1 : (curve.elim [] fun oid => Der.tlv 0xa0#8 (X509.objectIdentifier oid)).length ≤ 12 := by
    cases curve with
    | none => simp
    | some o =>
      have := h1 o rfl
      unfold X509.objectIdentifier
      simp only [Option.elim_some]
      rw [tlv_short 6#8 o (by omega), tlv_short _ _ (by simp; omega)]
      simp
      omega
  have a2 : (publicKey.elim [] fun p => Der.tlv 0xa1#8 (X509.bitString p)).length ≤ 70 := by
    cases publicKey with
    | none => simp
    | some p =>
      have := h2 p rfl
      unfold X509.bitString
      simp only [Option.elim_some]
      rw [tlv_short 3#8 (0#8 :: p) (by simp; omega), tlv_short _ _ (by simp; omega)]
      simp
      omega
  unfold Sec1.fields
  rw [List.length_append]
  omega

/-- The 32 octets of the key stand at offset 7. -/
theorem key_slice {ε : Type} (key : Nat) (curve publicKey : Option Bytes) (h1 : ∀ o, curve = some o → o.length ≤ 8)
    (h2 : ∀ p, publicKey = some p → p.length ≤ 65) :
    (slice (Sec1.ecPrivateKey 32 key curve publicKey) 7 39 : Res ε Bytes) = .ok (beBytes 32 key) := by
  have hf := fields_le curve publicKey h1 h2
  unfold Sec1.ecPrivateKey Der.sequence
  rw [integer_one, tlv_short 4#8 _ (by rw [beBytes_length]; omega), tlv_short 0x30#8 _ (by simp [beBytes_length]; omega)]
  unfold slice
  rw [if_pos (by simp [beBytes_length])]
  congr 1

end FilesProof
open FilesProof

/-! ### C79 -/

/-- A key file: a PEM file with one block "EC PRIVATE KEY" (RFC 5915), whatever other blocks it has (such as "EC PARAMETERS"). -/
def KeyFile (text : List Char) (body : Bytes) : Prop :=
  ∃ blocks, PemFile ['\n'] text blocks ∧ titled "EC PRIVATE KEY" blocks = [body]

/-- C79: the key read from a file is the P-256 key in it, and a key for another curve is refused. -/
def C79_statement : Prop :=
  (∀ (text : List Char) (key : Nat) (curve publicKey : Option Bytes), key < 2 ^ 256 → (∀ o, curve = some o → o = X509.prime256v1) →
    (∀ p, publicKey = some p → p.length ≤ 65) → KeyFile text (Sec1.ecPrivateKey 32 key curve publicKey) →
    (PrivateKey.fromPem (some text) : Res Unit (Option PrivateKey)) = .ok (some ⟨.secp256r1, key⟩)) ∧
  ∀ (text : List Char) (key : Nat) (publicKey : Option Bytes), key < 2 ^ 384 → KeyFile text (Sec1.ecPrivateKey 48 key (some Sec1.secp384r1) publicKey) →
    ∀ k, (PrivateKey.fromPem (some text) : Res Unit (Option PrivateKey)) ≠ .ok (some k)

/-- C79 for P-256 keys: every key, with or without the curve and the public key, in every layout of the file, is read as it is. Missing: keys for
another curve are read too (`C79_other_curve`). -/
theorem C79_key_partial {ε : Type} (text : List Char) (key : Nat) (curve publicKey : Option Bytes) (hk : key < 2 ^ 256)
    (hc : ∀ o, curve = some o → o = X509.prime256v1) (hp : ∀ p, publicKey = some p → p.length ≤ 65)
    (h : KeyFile text (Sec1.ecPrivateKey 32 key curve publicKey)) :
    (PrivateKey.fromPem (some text) : Res ε (Option PrivateKey)) = .ok (some ⟨.secp256r1, key⟩) := by
  obtain ⟨blocks, h1, h2⟩ := h
  have hne : blocks ≠ [] := by rintro rfl; cases h2
  unfold PrivateKey.fromPem
  rw [block_of h1 hne, h2]
  simp only [List.getLast?_singleton, Res.ok_bind, PrivateKey.fromPemBody]
  rw [key_slice key curve publicKey (fun o ho => by rw [hc o ho]; decide) hp]
  simp only [Res.ok_bind]
  have hk' : key < 256 ^ 32 := by norm_num at hk ⊢; exact hk
  rw [toIbigBe_eq, beNat_beBytes, Nat.mod_eq_of_lt hk']

/-- A P-384 key is taken for a P-256 key, whatever it is: the length octet of its OCTET STRING and its first 31 octets. -/
theorem C79_other_curve {ε : Type} (text : List Char) (key : Nat) (publicKey : Bytes) (hp : publicKey.length = 97)
    (h : KeyFile text (Sec1.ecPrivateKey 48 key (some Sec1.secp384r1) (some publicKey))) :
    (PrivateKey.fromPem (some text) : Res ε (Option PrivateKey)) = .ok (some ⟨.secp256r1, (beNat (48#8 :: (beBytes 48 key).take 31) : Nat)⟩) := by
  obtain ⟨blocks, h1, h2⟩ := h
  have hne : blocks ≠ [] := by rintro rfl; cases h2
  unfold PrivateKey.fromPem
  rw [block_of h1 hne, h2]
  simp only [List.getLast?_singleton, Res.ok_bind, PrivateKey.fromPemBody]
  have hs : (slice (Sec1.ecPrivateKey 48 key (some Sec1.secp384r1) (some publicKey)) 7 39 : Res ε Bytes) = .ok (48#8 :: (beBytes 48 key).take 31) := by
    have e1 : Der.tlv 0xa0#8 (X509.objectIdentifier Sec1.secp384r1) = [0xa0#8, 7#8, 6#8, 5#8, 0x2b#8, 0x81#8, 4#8, 0#8, 0x22#8] := by decide
    have e2 : Sec1.fields (some Sec1.secp384r1) (some publicKey) = [0xa0#8, 7#8, 6#8, 5#8, 0x2b#8, 0x81#8, 4#8, 0#8, 0x22#8] ++
        (0xa1#8 :: 100#8 :: 3#8 :: 98#8 :: 0#8 :: publicKey) := by
      unfold Sec1.fields X509.bitString
      simp only [Option.elim_some]
      rw [e1, tlv_short 3#8 (0#8 :: publicKey) (by simp; omega), tlv_short _ _ (by simp; omega)]
      simp [hp]
    unfold Sec1.ecPrivateKey Der.sequence
    rw [integer_one, tlv_short 4#8 _ (by rw [beBytes_length]; omega), e2]
    unfold Der.tlv Der.length
    obtain ⟨n, hn⟩ : ∃ n, n = ([2#8, 1#8, 1#8] ++ 4#8 :: BitVec.ofNat 8 (beBytes 48 key).length :: beBytes 48 key ++
      ([0xa0#8, 7#8, 6#8, 5#8, 0x2b#8, 0x81#8, 4#8, 0#8, 0x22#8] ++ (0xa1#8 :: 100#8 :: 3#8 :: 98#8 :: 0#8 :: publicKey))).length := ⟨_, rfl⟩
    have hn' : n = 164 := by rw [hn]; simp [beBytes_length, hp]
    rw [← hn, hn', beBytes_length, if_neg (by decide), if_pos (by decide)]
    unfold slice
    rw [if_pos (by simp [beBytes_length]; omega)]
    have e3 : beBytes 1 164 = [164#8] := by decide
    rw [e3]
    congr 1
  rw [hs]
  simp only [Res.ok_bind]
  rw [toIbigBe_eq]

namespace FilesProof

/-- There is a file with any given blocks (all Base64 on one line). -/
theorem file_exists (eol : List Char) (blocks : List (String × Bytes)) (h : ∀ b ∈ blocks, '\n' ∉ b.1.toList) : ∃ text, PemFile eol text blocks := by
  refine ⟨_, blocks.map fun b => ⟨[], b.1.toList, [Base64.encode b.2], b.2⟩, [], rfl, by simp, ?_, by simp⟩
  intro b hb
  obtain ⟨b', hb', rfl⟩ := List.mem_map.1 hb
  exact ⟨⟨by simp, by simp, h b' hb'⟩, by simp⟩

end FilesProof

/-- C79 is false: keys of P-384 are not refused. -/
theorem C79_false : ¬ C79_statement := by
  rintro ⟨-, h⟩
  obtain ⟨text, ht⟩ := file_exists ['\n'] [("EC PRIVATE KEY", Sec1.ecPrivateKey 48 5 (some Sec1.secp384r1) (some (4#8 :: zeros 96)))] (by
    intro b hb
    obtain rfl := List.mem_singleton.1 hb
    decide)
  have hk : KeyFile text (Sec1.ecPrivateKey 48 5 (some Sec1.secp384r1) (some (4#8 :: zeros 96))) := ⟨_, ht, by simp [titled]⟩
  exact h text 5 _ (lt_of_lt_of_le (by norm_num : 5 < 2 ^ 3) (Nat.pow_le_pow_right (by norm_num) (by norm_num))) hk _ (C79_other_curve text 5 _ (by simp [zeros]) hk)

/-! ### C80 -/

/-- C80: of a certificate file the first certificate is read (RFC 8446 section 4.4.2: the sender's certificate comes first; the certificates after it
certify it), whether its lines end with a line feed or with a carriage return and a line feed (RFC 7468 section 2). -/
def C80_for (eols : List Char → Prop) (one : Bool) : Prop :=
  ∀ (eol text : List Char) (blocks : List (String × Bytes)) (cert : Bytes), eols eol → PemFile eol text blocks →
    (titled "CERTIFICATE" blocks).head? = some cert → (one = true → titled "CERTIFICATE" blocks = [cert]) →
    (Certificate.fromPem (some text) : Res Unit (Option Certificate)) = .ok (some ⟨cert, none⟩)

@[inherit_doc C80_for] def C80_statement : Prop := C80_for (fun eol => eol = ['\n'] ∨ eol = ['\r', '\n']) false

/-- C80 for files with one certificate whose lines end with a line feed. Missing: of several certificates the last one is read (`C80_last`); of a file
with carriage returns none is (`C80_crlf`). -/
theorem C80_certificate_partial : C80_for (fun eol => eol = ['\n']) true := by
  rintro eol text blocks cert rfl h hh ho
  have hne : blocks ≠ [] := by rintro rfl; cases hh
  unfold Certificate.fromPem
  rw [block_of h hne, ho rfl]
  rfl

/-- The certificate of a client CA or of a client is read in the same way and must parse. -/
theorem C80_x509_partial {ε : Type} (text : List Char) (blocks : List (String × Bytes)) (cert : Bytes) (h : PemFile ['\n'] text blocks)
    (ho : titled "CERTIFICATE" blocks = [cert]) :
    (Certificate.fromPemX509 (some text) : Res ε (Option Certificate)) = match X509.fromRaw cert with
      | .ok x => .ok (some ⟨cert, some x⟩)
      | _ => .panic := by
  have hne : blocks ≠ [] := by rintro rfl; cases ho
  unfold Certificate.fromPemX509
  rw [block_of h hne, ho]
  simp only [List.getLast?_singleton, Res.ok_bind, Certificate.fromRawX509]
  cases X509.fromRaw cert <;> rfl

/-- Of a file with several certificates the last one is read. -/
theorem C80_last {ε : Type} (text : List Char) (blocks : List (String × Bytes)) (h : PemFile ['\n'] text blocks) (hne : blocks ≠ []) :
    (Certificate.fromPem (some text) : Res ε (Option Certificate)) = .ok ((titled "CERTIFICATE" blocks).getLast?.map fun c => ⟨c, none⟩) := by
  unfold Certificate.fromPem
  rw [block_of h hne]
  rfl

namespace FilesProof

/-- In a file with carriage returns every title ends with a dash. -/
def Dashed (s : PemSt) : Prop :=
  (∀ b ∈ s.content, b.1.getLast? = some '-') ∧ (s.state = .inContent → s.title.getLast? = some '-')

def DashedLine (line : List Char) : Prop := startsWith line "-----BEGIN".toList = true → ((line.take (line.length - 5)).drop 11).getLast? = some '-'

theorem dashed_line {s s' : PemSt} {line : List Char} (h : Dashed s) (hl : DashedLine line) (e : pemLine s line = .ok s') : Dashed s' := by
  obtain ⟨h1, h2⟩ := h
  unfold pemLine at e
  cases hs : s.state with
  | inContent =>
    rw [hs] at e
    simp only [] at e
    by_cases hst : startsWith line "-----END".toList = true
    · rw [if_pos hst] at e
      split at e
      · obtain rfl := Res.ok.inj e
        refine ⟨fun b hb => ?_, fun hc => by cases hc⟩
        rcases List.mem_cons.1 hb with rfl | hb
        · exact h2 hs
        · exact h1 b hb
      · cases e
      · rename_i x _; cases x
      · cases e
    · rw [if_neg hst] at e
      obtain rfl := Res.ok.inj e
      exact ⟨h1, fun _ => h2 hs⟩
  | fin =>
    rw [hs] at e
    simp only [] at e
    by_cases hst : startsWith line "-----BEGIN".toList = true
    · rw [if_pos hst] at e
      split at e
      · obtain rfl := Res.ok.inj e
        exact ⟨h1, fun _ => hl hst⟩
      · cases e
    · rw [if_neg hst] at e
      obtain rfl := Res.ok.inj e
      exact ⟨h1, h2⟩
  | start =>
    rw [hs] at e
    simp only [] at e
    by_cases hst : startsWith line "-----BEGIN".toList = true
    · rw [if_pos hst] at e
      split at e
      · obtain rfl := Res.ok.inj e
        exact ⟨h1, fun _ => hl hst⟩
      · cases e
    · rw [if_neg hst] at e
      obtain rfl := Res.ok.inj e
      exact ⟨h1, h2⟩

theorem dashed_lines : ∀ {lines : List (List Char)} {s s' : PemSt}, Dashed s → (∀ l ∈ lines, DashedLine l) → pemLines s lines = .ok s' → Dashed s'
  | [], s, s', h, _, e => by obtain rfl := Res.ok.inj e; exact h
  | l :: ls, s, s', h, hl, e => by
    obtain ⟨s1, e1, e2⟩ := Res.bind_eq_ok.1 e
    exact dashed_lines (dashed_line h (hl l (by simp)) e1) (fun l' hl' => hl l' (by simp [hl'])) e2

theorem begins {l : List Char} (c : Char) (hc : c ∉ "-----BEGIN".toList) (h : startsWith l "-----BEGIN".toList = false) :
    startsWith (l ++ [c]) "-----BEGIN".toList = false := by
  rw [Bool.eq_false_iff] at h ⊢
  intro hn
  apply h
  unfold startsWith at hn ⊢
  rw [List.isPrefixOf_iff_prefix] at hn ⊢
  obtain ⟨t, ht⟩ := hn
  rcases List.eq_nil_or_concat t with rfl | ⟨t', d, rfl⟩
  · rw [List.append_nil] at ht
    exact absurd (by rw [ht]; simp) hc
  · rw [List.concat_eq_append, ← List.append_assoc] at ht
    exact ⟨t', (List.append_inj' ht rfl).1⟩

end FilesProof

/-- A file whose lines end with a carriage return and a line feed gives no certificate, whatever is in it. -/
theorem C80_crlf {ε : Type} (text : List Char) (blocks : List (String × Bytes)) (h : PemFile ['\r', '\n'] text blocks) (c : Certificate) :
    (Certificate.fromPem (some text) : Res ε (Option Certificate)) ≠ .ok (some c) := by
  intro hw
  obtain ⟨bs, tail, rfl, -, hb, ht⟩ := h
  have hlines : ∀ l ∈ bs.flatMap PemBlock.renderLines ++ tail, '\n' ∉ l ∧ DashedLine (l ++ ['\r']) := by
    intro l hl
    have junk : startsWith l "-----BEGIN".toList = false → DashedLine (l ++ ['\r']) := fun hj hs => by
      rw [begins '\r' (by decide) hj] at hs
      cases hs
    rw [List.mem_append] at hl
    rcases hl with hl | hl
    · obtain ⟨b, hbm, hl⟩ := List.mem_flatMap.1 hl
      obtain ⟨⟨hj, hjn, htn⟩, hp⟩ := hb b hbm
      unfold PemBlock.renderLines at hl
      simp only [List.mem_append, List.mem_singleton] at hl
      rcases hl with ((hl | hl) | hl) | hl
      · exact ⟨hjn l hl, junk (hj l hl)⟩
      · subst hl
        refine ⟨?_, fun _ => ?_⟩
        · simp only [List.mem_append, not_or]
          exact ⟨⟨by decide, htn⟩, by decide⟩
        · have e : "-----BEGIN ".toList ++ b.title ++ "-----".toList ++ ['\r'] = "-----BEGIN ".toList ++ ((b.title ++ ['-']) ++ ['-', '-', '-', '-', '\r']) := by
            simp
          rw [e]
          have e2 : ("-----BEGIN ".toList ++ ((b.title ++ ['-']) ++ ['-', '-', '-', '-', '\r'])).length - 5 = ("-----BEGIN ".toList ++ (b.title ++ ['-'])).length := by
            simp
          rw [e2, ← List.append_assoc "-----BEGIN ".toList (b.title ++ ['-']), List.take_left]
          rw [List.drop_left' (by decide)]
          simp
      · refine ⟨fun hmem => ?_, junk ?_⟩
        · have : '\n' ∈ b.lines.flatten := List.mem_flatten.2 ⟨l, hl, hmem⟩
          rw [hp, ← b64Encode_eq_spec] at this
          exact (b64Encode_chars _ _ this).2.1 rfl
        · rw [Bool.eq_false_iff]
          intro hs
          unfold startsWith at hs
          rw [List.isPrefixOf_iff_prefix] at hs
          have : '-' ∈ b.lines.flatten := List.mem_flatten.2 ⟨l, hl, hs.subset (by decide)⟩
          rw [hp, ← b64Encode_eq_spec] at this
          exact (b64Encode_chars _ _ this).2.2 rfl
      · subst hl
        refine ⟨?_, junk (by unfold startsWith; rfl)⟩
        simp only [List.mem_append, not_or]
        exact ⟨⟨by decide, htn⟩, by decide⟩
    · exact ⟨(ht l hl).1, junk (ht l hl).2⟩
  have hsplit : splitLines ((bs.flatMap PemBlock.renderLines ++ tail).flatMap (fun l => l ++ ['\r', '\n'])) =
      (bs.flatMap PemBlock.renderLines ++ tail).map (· ++ ['\r']) ++ [[]] := by
    have := splitLines_flat ((bs.flatMap PemBlock.renderLines ++ tail).map (· ++ ['\r'])) [] (by
      intro l hl
      obtain ⟨l', hl', rfl⟩ := List.mem_map.1 hl
      simp only [List.mem_append, not_or]
      exact ⟨(hlines l' hl').1, by decide⟩)
    rw [List.append_nil, List.flatMap_map] at this
    simpa [List.append_assoc, splitLines] using this
  unfold Certificate.fromPem at hw
  obtain ⟨raw, hw1, hw2⟩ := Res.bind_eq_ok.1 hw
  unfold pemBlock pemFile pemContent at hw1
  simp only [hsplit] at hw1
  cases hp : pemLines { content := [], state := .start, title := [], cur := [] } ((bs.flatMap PemBlock.renderLines ++ tail).map (· ++ ['\r']) ++ [[]]) with
  | err e => rw [hp] at hw1; simp only [Res.err_bind] at hw1; obtain rfl := Res.ok.inj hw1; cases hw2
  | panic => rw [hp] at hw1; simp only [Res.panic_bind] at hw1; cases hw1
  | ok s =>
    have hd := dashed_lines (s := { content := [], state := .start, title := [], cur := [] }) ⟨by simp, by simp⟩ (by
      intro l hl
      rcases List.mem_append.1 hl with hl | hl
      · obtain ⟨l', hl', rfl⟩ := List.mem_map.1 hl
        exact (hlines l' hl').2
      · rw [List.mem_singleton.1 hl]
        intro hs
        cases hs) hp
    rw [hp] at hw1
    simp only [Res.ok_bind] at hw1
    split at hw1
    · rename_i content hcont
      split at hcont
      · obtain rfl := Res.ok.inj hcont
        obtain rfl := Res.ok.inj hw1
        cases hl : s.content.lookup "CERTIFICATE".toList with
        | none => rw [hl] at hw2; cases hw2
        | some raw =>
          have hm := List.lookup_eq_some_iff.1 hl
          obtain ⟨l1, l2, hm, _⟩ := hm
          have := hd.1 ("CERTIFICATE".toList, raw) (by rw [hm]; simp)
          exact absurd this (by show ¬ ("CERTIFICATE".toList).getLast? = some '-'; decide)
      · cases hcont
    · obtain rfl := Res.ok.inj hw1
      cases hw2
    · cases hw1

/-- C80 is false, in both ways: a file with two certificates, a file with carriage returns. -/
theorem C80_false : ¬ C80_statement ∧ ¬ C80_for (fun eol => eol = ['\n']) false ∧ ¬ C80_for (fun eol => eol = ['\r', '\n']) true := by
  have h1 : ¬ C80_for (fun eol => eol = ['\n']) false := by
    intro h
    obtain ⟨text, ht⟩ := file_exists ['\n'] [("CERTIFICATE", [1#8]), ("CERTIFICATE", [2#8])] (by
      intro b hb
      simp only [List.mem_cons, List.not_mem_nil, or_false] at hb
      rcases hb with rfl | rfl <;> decide)
    have := h ['\n'] text _ [1#8] rfl ht (by decide) (by simp)
    rw [C80_last text _ ht (by simp)] at this
    revert this
    decide
  refine ⟨fun h => h1 fun eol text blocks cert he => h eol text blocks cert (.inl he), h1, fun h => ?_⟩
  obtain ⟨text, ht⟩ := file_exists ['\r', '\n'] [("CERTIFICATE", [1#8])] (by
    intro b hb
    obtain rfl := List.mem_singleton.1 hb
    decide)
  exact C80_crlf text _ ht _ (h _ text _ [1#8] rfl ht (by decide) (fun _ => by decide))

end ATLS
