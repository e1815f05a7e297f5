import Verif.Spec.QuoteParts
import Verif.Props.PckCert
import Verif.Props.Texts

/-!
# From quotes and documents to the registered enclave: C154
-/

namespace Verif

open Demo Der B64 Spelling

/-! ### C154 Honest parties can register by quote -/

theorem sub_part {l A B C : Bytes} {off k n : Nat} (h : l = A ++ B ++ C) (hA : A.length + k = off) (hB : k + n ≤ B.length) :
    sub l off n = sub B k n := by
  subst h hA
  unfold sub
  rw [List.append_assoc, List.drop_append, List.drop_eq_nil_of_le (by omega), List.nil_append,
    show A.length + k - A.length = k by omega, List.drop_append_of_le_length (by omega),
    List.take_append_of_le_length (by rw [List.length_drop]; omega)]

theorem sub_whole {l A B C : Bytes} {off n : Nat} (h : l = A ++ B ++ C) (hA : A.length = off) (hB : B.length = n) : sub l off n = B := by
  rw [sub_part (k := 0) h (by omega) (by omega)]
  unfold sub
  rw [List.drop_zero, List.take_of_length_le (by omega)]

theorem getD_part {l A B C : Bytes} {off k : Nat} (h : l = A ++ B ++ C) (hA : A.length + k = off) (hB : k < B.length) :
    l.getD off 0 = B.getD k 0 := by
  subst h hA
  simp only [List.getD_eq_getElem?_getD]
  rw [List.append_assoc, List.getElem?_append_right (by omega), show A.length + k - A.length = k by omega,
    List.getElem?_append_left hB]

theorem matches_part {l A B C : Bytes} (h : l = A ++ B ++ C) (hA : A.length = 564) (hB : B.length = 384) {o : SgxQuotingEnclave}
    (hm : QeMatches B 0 o) : QeMatches l 564 o := by
  have hs : ∀ k n, k + n ≤ 384 → sub l (564 + k) n = sub B (0 + k) n := fun k n hk => by
    rw [Nat.zero_add]
    exact sub_part h (by omega) (by omega)
  refine ⟨by rw [hs _ _ (by omega)]; exact hm.prodId, by rw [hs _ _ (by omega)]; exact hm.signer, fun i hi => ?_, fun k hk => ?_,
    by rw [hs _ _ (by omega)]; exact hm.svn⟩
  · rw [getD_part (k := 0 + 16 + i) h (by omega) (by omega), hm.misc i hi]
  · rw [hs _ _ (by omega)]; exact hm.flags k hk

theorem encode_of_verifies {x : Ext} {cert data sig : Bytes} (hl : sig.length = 64) (h : EcdsaVerifies x cert data sig) :
    ∃ der, encodeAsDer sig = .ok der ∧ x.certVerifySig .ecdsaP256Sha256 cert data der = true := by
  obtain ⟨der, h1, h2⟩ := h
  exact ⟨der, (C73_exact sig der).mpr ⟨hl, h1⟩, h2⟩

/-- Where the parts of a quote are. -/
structure Laid (raw : Bytes) (q : QuoteParts) : Prop where
  version : sub raw 0 2 = [3, 0]
  keyType : sub raw 2 2 = [2, 0]
  signed : sub raw 0 432 = q.signed
  signature : sub raw 436 64 = q.signature.val
  key : sub raw 500 64 = q.key.val
  qeReport : sub raw 564 384 = q.qeReport.val
  qeSignature : sub raw 948 64 = q.qeSignature.val
  authSize : authSize raw = q.auth.length
  auth : sub raw 1014 q.auth.length = q.auth
  certType : sub raw (1014 + q.auth.length) 2 = [5, 0]
  certSize : sub raw (1014 + q.auth.length + 2) 4 = toLE 4 q.certs.length
  certs : sub raw (1020 + q.auth.length) q.certs.length = q.certs
  length : raw.length = 1020 + q.auth.length + q.certs.length
  body : ∀ k n, k + n ≤ 384 → sub raw (48 + k) n = sub q.body.val k n

set_option linter.unusedSimpArgs false in
theorem laid (q : QuoteParts) (h8 : q.auth.length < 65536) : Laid q.bytes q := by
  have h1 := q.header.property
  have h2 := q.body.property
  have h3 := q.sigLen.property
  have h4 := q.signature.property
  have h5 := q.key.property
  have h6 := q.qeReport.property
  have h7 := q.qeSignature.property
  have h9 : (toLE 4 q.certs.length).length = 4 := by simp
  have h0 : q.signed.length = 432 := by simp [QuoteParts.signed, h1, h2]
  have ha : sub q.bytes 1012 2 = toLE 2 q.auth.length :=
    sub_whole (A := q.signed ++ q.sigLen.val ++ q.signature.val ++ q.key.val ++ q.qeReport.val ++ q.qeSignature.val) (B := toLE 2 q.auth.length) (C := q.auth ++ [5, 0] ++ toLE 4 q.certs.length ++ q.certs) (by simp [QuoteParts.bytes]) (by simp [h0, h3, h4, h5, h6, h7, Nat.add_assoc]) (by simp [h0, h3, h4, h5, h6, h7, Nat.add_assoc])
  exact
    { version := rfl, keyType := rfl
      signed := sub_whole (A := []) (B := q.signed) (C := q.sigLen.val ++ q.signature.val ++ q.key.val ++ q.qeReport.val ++ q.qeSignature.val ++ toLE 2 q.auth.length ++ q.auth ++ [5, 0] ++ toLE 4 q.certs.length ++ q.certs) (by simp [QuoteParts.bytes]) (by simp [h0, h3, h4, h5, h6, h7, Nat.add_assoc]) (by simp [h0, h3, h4, h5, h6, h7, Nat.add_assoc])
      signature := sub_whole (A := q.signed ++ q.sigLen.val) (B := q.signature.val) (C := q.key.val ++ q.qeReport.val ++ q.qeSignature.val ++ toLE 2 q.auth.length ++ q.auth ++ [5, 0] ++ toLE 4 q.certs.length ++ q.certs) (by simp [QuoteParts.bytes]) (by simp [h0, h3, h4, h5, h6, h7, Nat.add_assoc]) (by simp [h0, h3, h4, h5, h6, h7, Nat.add_assoc])
      key := sub_whole (A := q.signed ++ q.sigLen.val ++ q.signature.val) (B := q.key.val) (C := q.qeReport.val ++ q.qeSignature.val ++ toLE 2 q.auth.length ++ q.auth ++ [5, 0] ++ toLE 4 q.certs.length ++ q.certs) (by simp [QuoteParts.bytes]) (by simp [h0, h3, h4, h5, h6, h7, Nat.add_assoc]) (by simp [h0, h3, h4, h5, h6, h7, Nat.add_assoc])
      qeReport := sub_whole (A := q.signed ++ q.sigLen.val ++ q.signature.val ++ q.key.val) (B := q.qeReport.val) (C := q.qeSignature.val ++ toLE 2 q.auth.length ++ q.auth ++ [5, 0] ++ toLE 4 q.certs.length ++ q.certs) (by simp [QuoteParts.bytes]) (by simp [h0, h3, h4, h5, h6, h7, Nat.add_assoc]) (by simp [h0, h3, h4, h5, h6, h7, Nat.add_assoc])
      qeSignature := sub_whole (A := q.signed ++ q.sigLen.val ++ q.signature.val ++ q.key.val ++ q.qeReport.val) (B := q.qeSignature.val) (C := toLE 2 q.auth.length ++ q.auth ++ [5, 0] ++ toLE 4 q.certs.length ++ q.certs) (by simp [QuoteParts.bytes]) (by simp [h0, h3, h4, h5, h6, h7, Nat.add_assoc]) (by simp [h0, h3, h4, h5, h6, h7, Nat.add_assoc])
      auth := sub_whole (A := q.signed ++ q.sigLen.val ++ q.signature.val ++ q.key.val ++ q.qeReport.val ++ q.qeSignature.val ++ toLE 2 q.auth.length) (B := q.auth) (C := [5, 0] ++ toLE 4 q.certs.length ++ q.certs) (by simp [QuoteParts.bytes]) (by simp [h0, h3, h4, h5, h6, h7, Nat.add_assoc]) (by simp [h0, h3, h4, h5, h6, h7, Nat.add_assoc])
      certType := sub_whole (A := q.signed ++ q.sigLen.val ++ q.signature.val ++ q.key.val ++ q.qeReport.val ++ q.qeSignature.val ++ toLE 2 q.auth.length ++ q.auth) (B := [5, 0]) (C := toLE 4 q.certs.length ++ q.certs) (by simp [QuoteParts.bytes]) (by simp [h0, h3, h4, h5, h6, h7]; omega) (by simp)
      certSize := sub_whole (A := q.signed ++ q.sigLen.val ++ q.signature.val ++ q.key.val ++ q.qeReport.val ++ q.qeSignature.val ++ toLE 2 q.auth.length ++ q.auth ++ [5, 0]) (B := toLE 4 q.certs.length) (C := q.certs) (by simp [QuoteParts.bytes]) (by simp [h0, h3, h4, h5, h6, h7]; omega) (by simp)
      certs := sub_whole (A := q.signed ++ q.sigLen.val ++ q.signature.val ++ q.key.val ++ q.qeReport.val ++ q.qeSignature.val ++ toLE 2 q.auth.length ++ q.auth ++ [5, 0] ++ toLE 4 q.certs.length) (B := q.certs) (C := []) (by simp [QuoteParts.bytes]) (by simp [h0, h3, h4, h5, h6, h7]; omega) (by simp)
      authSize := by rw [authSize, ha, leNat_toLE _ _ (by omega)]
      length := by simp [QuoteParts.bytes, h0, h3, h4, h5, h6, h7, Nat.add_assoc]; omega
      body := fun k n hk => sub_part (A := [3, 0, 2, 0] ++ q.header.val) (B := q.body.val) (C := q.sigLen.val ++ q.signature.val ++ q.key.val ++ q.qeReport.val ++ q.qeSignature.val ++ toLE 2 q.auth.length ++ q.auth ++ [5, 0] ++ toLE 4 q.certs.length ++ q.certs)
        (by simp [QuoteParts.bytes, QuoteParts.signed]) (by simp [h1]) (by omega) }

/-- The enclave that a quote describes, as it is recorded. -/
def QuoteParts.Recorded (q : QuoteParts) (now : Nat) (url : Option Bytes) (st : SgxStatus) (m : SgxAttestationMethod) (e : SgxEnclave) : Prop :=
  e.mrEnclave.val = sub q.body.val 64 32 ∧ e.mrSigner.val = sub q.body.val 128 32 ∧ e.reportData.val = sub q.body.val 320 64 ∧
    (e.buildMode = .debug ↔ (leNat (sub q.body.val 48 8)).testBit 1 = true) ∧ e.timestamp = now ∧ e.status = st ∧ e.url = url ∧ e.method = m

/-- The full claim for quotes: a quote made on a platform whose TCB info is known, by a quoting enclave with the known identity, is
accepted from the account in the report. It is false for the code, see `C154_refuted`. -/
def C154_Full : Prop := ∀ (c : Cfg) (s : Chain) (a : AccountId) (q : QuoteParts) (e : PckExtension) (url : Option Bytes)
  (info : SgxTcbInfoOnChain) (st : SgxStatus), ReadsBase64 c.ext → MadeOn c.ext s.now q e → QeMatches q.qeReport.val 0 s.tx.qe →
  e.pcesvn < 65536 → s.tx.tcb e.fmspc = some info → FirstDominated info ⟨e.cpusvn, e.pcesvn, .unknown⟩ st →
  sub q.body.val 320 32 = a.val → q.auth.length + q.certs.length ≤ 3980 → (∀ u, url = some u → u.length ≤ 256) →
  (s.tx.allowDebug = true ∨ (leNat (sub q.body.val 48 8)).testBit 1 = false) →
  ∃ s' en, exec c s (.ext (.signed a) (.registerSgxEnclave q.bytes url (.dcap false))) = .ok s' ∧ s'.tx.sovereign a = some en ∧
    q.Recorded s.now url st (.dcap false) en

/-- What the code takes for the authentication data: 32 bytes from their start on. -/
theorem sub_auth (q : QuoteParts) :
    sub q.bytes 1014 32 = (q.auth ++ [5, 0] ++ toLE 4 q.certs.length ++ q.certs).take 32 := by
  have hb : q.bytes = (q.signed ++ q.sigLen.val ++ q.signature.val ++ q.key.val ++ q.qeReport.val ++ q.qeSignature.val ++
    toLE 2 q.auth.length) ++ (q.auth ++ [5, 0] ++ toLE 4 q.certs.length ++ q.certs) := by simp [QuoteParts.bytes]
  have hl : (q.signed ++ q.sigLen.val ++ q.signature.val ++ q.key.val ++ q.qeReport.val ++ q.qeSignature.val ++
    toLE 2 q.auth.length).length = 1014 := by
    simp [QuoteParts.signed, q.header.property, q.body.property, q.sigLen.property, q.signature.property, q.key.property,
      q.qeReport.property, q.qeSignature.property]
  rw [hb, sub, ← hl, List.drop_left]

/-- Authentication data of 32 bytes are taken as they are. -/
theorem take_auth {q : QuoteParts} (h : q.auth.length = 32) : (q.auth ++ [5, 0] ++ toLE 4 q.certs.length ++ q.certs).take 32 = q.auth := by
  rw [← h, List.append_assoc, List.append_assoc, List.take_left]

/-- What the quote says is attested. -/
theorem made_attested {c : Cfg} {s : Chain} {a : AccountId} {q : QuoteParts} {e : PckExtension} {url : Option Bytes} {info : SgxTcbInfoOnChain}
    {st : SgxStatus} (p : Bool) (hb : ReadsBase64 c.ext) (hq : MadeOn c.ext s.now q e)
    (hh : c.ext.sha256 (q.key.val ++ (q.auth ++ [5, 0] ++ toLE 4 q.certs.length ++ q.certs).take 32) = c.ext.sha256 (q.key.val ++ q.auth))
    (hid : QeMatches q.qeReport.val 0 s.tx.qe)
    (hn : e.pcesvn < 32768) (hp : Absent sgxArc e.ppid.val) (hc : Absent sgxArc e.cpusvn.val)
    (hi : s.tx.tcb e.fmspc = some info) (hst : FirstDominated info ⟨e.cpusvn, e.pcesvn, .unknown⟩ st)
    (hlen : q.auth.length + q.certs.length ≤ 3980) :
    ∃ en, Attested c s a q.bytes en ∧ q.Recorded s.now url st (.dcap p) en := by
  obtain ⟨L1, L2, L3, L4, L5, L6, L7, L8, L9, L10, L11, L12, L13, L14⟩ := laid q (by omega)
  have L15 := sub_auth q
  generalize hraw : q.bytes = raw at *
  obtain ⟨leaf, ⟨i, inter, chain, tail, p1, p2, p3, p4, p5⟩, p6, p7⟩ := hq.platform
  obtain ⟨der, e1, e2⟩ := encode_of_verifies q.qeSignature.property p7
  have hcs : certSize raw = q.certs.length := by
    rw [certSize, L8, L11, leNat_toLE _ _ (by omega)]
  have hlb : ∀ k n, k + n ≤ 384 → (sub q.body.val k n).length = n := fun k n h => by
    have := q.body.property
    simp only [sub, List.length_take, List.length_drop]; omega
  let r : SgxVerifiedReport :=
    { mrEnclave := ⟨sub q.body.val 64 32, hlb _ _ (by omega)⟩, mrSigner := ⟨sub q.body.val 128 32, hlb _ _ (by omega)⟩
      status := .invalid, timestamp := s.now
      buildMode := if (leNat (sub q.body.val 48 8)).testBit 1 = true then .debug else .production
      reportData := ⟨sub q.body.val 320 64, hlb _ _ (by omega)⟩ }
  let en : SgxEnclave :=
    { reportData := r.reportData, mrEnclave := r.mrEnclave, mrSigner := r.mrSigner, timestamp := r.timestamp, url := url
      buildMode := r.buildMode, method := .dcap p, status := st }
  have hauth : AuthenticQuote c.ext raw s.now s.tx.qe e.fmspc ⟨e.cpusvn, e.pcesvn, .unknown⟩ r :=
    { length := by rw [hcs, L8, L13]; omega
      certBound := by rw [hcs]; omega
      version := by rw [L1]; rfl
      keyType := by rw [L2]; rfl
      certType := by rw [L8, L10]; rfl
      qeMatches := by
        rw [← hraw]
        exact matches_part (A := q.signed ++ q.sigLen.val ++ q.signature.val ++ q.key.val) (B := q.qeReport.val)
          (C := q.qeSignature.val ++ toLE 2 q.auth.length ++ q.auth ++ [5, 0] ++ toLE 4 q.certs.length ++ q.certs) (by simp [QuoteParts.bytes])
          (by simp [QuoteParts.signed, q.header.property, q.body.property, q.sigLen.property, q.signature.property, q.key.property])
          q.qeReport.property hid
      leaf := ⟨leaf, i, inter, der, by rw [hcs, L8, L12, p3]; exact C152_chain_partial c.ext chain tail _ hb p1 p2, p4, p5,
        C153_platform_partial c.ext leaf e hn hp hc p6, by rw [L7]; exact e1, by rw [L6]; exact e2⟩
      keyHash := by
        rw [L5, L15, hh, hq.key]
        exact (by rw [← L6]; unfold sub; rw [List.drop_take, List.take_take, List.drop_drop]; rfl)
      bodySig := by rw [L5, L3, L4]; exact hq.signed
      mrEnclave := (L14 64 32 (by omega)).symm
      mrSigner := (L14 128 32 (by omega)).symm
      reportData := (L14 320 64 (by omega)).symm
      buildMode := by rw [L14 48 8 (by omega)]; simp [r]
      timestamp := rfl
      status := rfl }
  exact ⟨en, ⟨e.fmspc, _, r, info, hauth, ⟨rfl, rfl, rfl, rfl, rfl⟩, hi, hst⟩, rfl, rfl, rfl, by simp [en, r], rfl, rfl, rfl, rfl⟩

/-- C154, proved part: a quote made on a platform whose TCB info is known, by a quoting enclave with the known identity, is accepted
from the account in the report, and what is recorded is what the quote and the TCB info say. Missing: the platforms that are
missing in `C153_platform_partial`, and quotes with authentication data that are not 32 bytes long (see
`C154_other_sizes_refused`). The hypotheses are met by the last examples below. -/
theorem C154_quote_partial (c : Cfg) (s : Chain) (a : AccountId) (q : QuoteParts) (e : PckExtension) (url : Option Bytes) (info : SgxTcbInfoOnChain)
    (st : SgxStatus) (hb : ReadsBase64 c.ext) (hq : MadeOn c.ext s.now q e) (h32 : q.auth.length = 32)
    (hid : QeMatches q.qeReport.val 0 s.tx.qe)
    (hn : e.pcesvn < 32768) (hp : Absent sgxArc e.ppid.val) (hc : Absent sgxArc e.cpusvn.val)
    (hi : s.tx.tcb e.fmspc = some info) (hst : FirstDominated info ⟨e.cpusvn, e.pcesvn, .unknown⟩ st)
    (hkey : sub q.body.val 320 32 = a.val) (hlen : q.certs.length ≤ 3948) (hurl : ∀ u, url = some u → u.length ≤ 256)
    (hdb : s.tx.allowDebug = true ∨ (leNat (sub q.body.val 48 8)).testBit 1 = false) :
    ∃ s' en, exec c s (.ext (.signed a) (.registerSgxEnclave q.bytes url (.dcap false))) = .ok s' ∧ s'.tx.sovereign a = some en ∧
      q.Recorded s.now url st (.dcap false) en := by
  obtain ⟨en, hatt, hr⟩ := made_attested (a := a) (url := url) false hb hq (by rw [take_auth h32]) hid hn hp hc hi hst (by omega)
  have hmode : s.tx.allowDebug = true ∨ en.buildMode ≠ .debug := by
    rcases hdb with h | h
    · exact .inl h
    · right; intro hd; rw [hr.2.2.2.1.mp hd] at h; cases h
  have hkey' : en.reportData.val.take 32 = a.val := by
    rw [hr.2.2.1, ← hkey]
    simp only [sub, List.take_take]
    rfl
  have hm : en.method = .dcap false := hr.2.2.2.2.2.2.2
  have hpx : en.proxied = false := by simp [SgxEnclave.proxied, hm]
  have hlen' := (laid q (by omega)).length
  have hok := register_iff.mpr ⟨a, en, rfl, by omega, hurl, hm, hr.2.2.2.2.2.2.1, hatt, hmode, .inl ⟨hpx, hkey', rfl⟩⟩
  exact ⟨_, en, hok, by simp [upd], hr⟩

/-- C154, proved part, for enclaves without an account of their own: everybody can register the quote, and the enclave is recorded
under its measurement, the account that registered it and its report data. Missing: the same as in `C154_quote_partial`. -/
theorem C154_proxied_partial (c : Cfg) (s : Chain) (a : AccountId) (q : QuoteParts) (e : PckExtension) (url : Option Bytes) (info : SgxTcbInfoOnChain)
    (st : SgxStatus) (hb : ReadsBase64 c.ext) (hq : MadeOn c.ext s.now q e) (h32 : q.auth.length = 32)
    (hid : QeMatches q.qeReport.val 0 s.tx.qe)
    (hn : e.pcesvn < 32768) (hp : Absent sgxArc e.ppid.val) (hc : Absent sgxArc e.cpusvn.val)
    (hi : s.tx.tcb e.fmspc = some info) (hst : FirstDominated info ⟨e.cpusvn, e.pcesvn, .unknown⟩ st)
    (hlen : q.certs.length ≤ 3948) (hurl : ∀ u, url = some u → u.length ≤ 256)
    (hdb : s.tx.allowDebug = true ∨ (leNat (sub q.body.val 48 8)).testBit 1 = false) :
    ∃ s' m en, exec c s (.ext (.signed a) (.registerSgxEnclave q.bytes url (.dcap true))) = .ok s' ∧ m.val = sub q.body.val 64 32 ∧
      s'.tx.proxied ⟨m, a, .opaque (sub q.body.val 320 64 ++ [0, 0])⟩ = some en ∧ q.Recorded s.now url st (.dcap true) en := by
  obtain ⟨en, hatt, hr⟩ := made_attested (a := a) (url := url) true hb hq (by rw [take_auth h32]) hid hn hp hc hi hst (by omega)
  have hmode : s.tx.allowDebug = true ∨ en.buildMode ≠ .debug := by
    rcases hdb with h | h
    · exact .inl h
    · right; intro hd; rw [hr.2.2.2.1.mp hd] at h; cases h
  have hm : en.method = .dcap true := hr.2.2.2.2.2.2.2
  have hpx : en.proxied = true := by simp [SgxEnclave.proxied, hm]
  have hlen' := (laid q (by omega)).length
  have hok := register_iff.mpr ⟨a, en, rfl, by omega, hurl, hm, hr.2.2.2.2.2.2.1, hatt, hmode, .inr ⟨hpx, rfl⟩⟩
  exact ⟨_, en.mrEnclave, en, hok, hr.1, by simp [upd, hr.2.2.1], hr⟩

/-- C154: a quote with authentication data of another size is refused, unless the hash takes 32 bytes from that place on for the
authentication data: the code hashes 32 bytes, whatever the size says. The hypotheses are met by the last examples below. -/
theorem C154_other_sizes_refused (c : Cfg) (s s' : Chain) (o : Origin) (q : QuoteParts) (e : PckExtension) (url : Option Bytes) (p : Bool)
    (hq : MadeOn c.ext s.now q e) (hsz : q.auth.length < 65536)
    (hh : c.ext.sha256 (q.key.val ++ (q.auth ++ [5, 0] ++ toLE 4 q.certs.length ++ q.certs).take 32) ≠ c.ext.sha256 (q.key.val ++ q.auth)) :
    exec c s (.ext o (.registerSgxEnclave q.bytes url (.dcap p))) ≠ .ok s' := by
  intro h
  obtain ⟨a, en, _, _, _, hm, _, hatt, _⟩ := register_iff.mp h
  simp only [Attested, hm] at hatt
  obtain ⟨f, t, r, info, hauth, _⟩ := hatt
  have L := laid q hsz
  have hk := hauth.keyHash
  have hqe : sub q.bytes (564 + 320) 32 = sub q.qeReport.val 320 32 := by
    rw [← L.qeReport]; unfold sub; rw [List.drop_take, List.take_take, List.drop_drop]; rfl
  rw [L.key, hqe, ← hq.key, sub_auth q] at hk
  exact hh hk

/-- The text `data` was published by Intel: signed with a key whose chain of certificates is the text `pem`. -/
def Published (x : Ext) (now : Nat) (data sig pem : Bytes) : Prop :=
  sig.length = 64 ∧ ∃ leaf, ChainText x now pem leaf ∧ EcdsaVerifies x leaf data sig

theorem signed_of_published {x : Ext} {now : Nat} {data sig pem : Bytes} (hb : ReadsBase64 x) (h : Published x now data sig pem) :
    SignedByIntel x now data sig pem := by
  obtain ⟨hl, leaf, ⟨i, inter, chain, tail, p1, p2, rfl, p4, p5⟩, hv⟩ := h
  obtain ⟨der, e1, e2⟩ := encode_of_verifies hl hv
  exact ⟨leaf, i, inter, der, C152_chain_partial x chain tail _ hb p1 p2, p4, p5, e1, e2⟩

/-- The document is well formed, apart from its two dates; the dates of its levels have the published form. -/
structure IdentityDoc.WellFormed (i : IdentityDoc) : Prop where
  id : i.id = "QE"
  version : i.version = 2
  evaluation : 0 ≤ i.evaluation ∧ i.evaluation < 2 ^ 16
  ascii : i.Ascii
  hex : HexOf 4 i.miscselect ∧ HexOf 4 i.miscselectMask ∧ HexOf 16 i.attributes ∧ HexOf 16 i.attributesMask ∧ HexOf 32 i.mrsigner
  isvprodid : 0 ≤ i.isvprodid ∧ i.isvprodid < 2 ^ 16
  levels : ∀ l ∈ i.levels, 0 ≤ l.1 ∧ l.1 < 2 ^ 16 ∧ (∃ d : CivilTime, d.Valid ∧ l.2.1 = d.text) ∧ l.2.2 ∈ ["UpToDate", "OutOfDate", "Revoked"]

theorem stored_matches {x : String → Option Int} {doc : IdentityDoc} {o : SgxQuotingEnclave} {report : Bytes} (h : doc.StoredAs x o)
    (hd : doc.Describes report) : QeMatches report 0 o := by
  obtain ⟨_, _, a1, a2, a3, a4, a5, a6, a7⟩ := h
  obtain ⟨o', b1, b2, b3, b4, b5, b6, b7, hm⟩ := hd
  have inj : ∀ {n : Nat} {u v : Arr n}, hexOf u.val = hexOf v.val → u = v := fun h => Subtype.ext (hexOf_inj _ _ h)
  have c1 := inj (a1.symm.trans b1)
  have c2 := inj (a2.symm.trans b2)
  have c3 := inj (a3.symm.trans b3)
  have c4 := inj (a4.symm.trans b4)
  have c5 := inj (a5.symm.trans b5)
  have c6 : o.isvprodid = o'.isvprodid := by have := a6.trans b6.symm; omega
  have c7 : o.tcb = o'.tcb := by
    have h := a7.trans b7.symm
    have inv : ∀ l : List Nat, (l.map fun n : Nat => (n : Int)).map Int.toNat = l := fun l => by
      rw [List.map_map]; exact List.map_id'' (fun _ => rfl) l
    rw [← inv o.tcb, h, inv]
  exact ⟨by rw [c6]; exact hm.prodId, by rw [c5]; exact hm.signer, by rw [c1, c2]; exact hm.misc, by rw [c3, c4]; exact hm.flags,
    by rw [c7]; exact hm.svn⟩

theorem dominated_iff {l : TcbVersionStatus} {d : TcbLevelDoc} {e : PckExtension} {u : TcbStatus}
    (h1 : l.cpusvn.val.map (fun b => (b.toNat : Int)) = d.svns) (h2 : (l.pcesvn : Int) = d.pcesvn) :
    Dominated l ⟨e.cpusvn, e.pcesvn, u⟩ ↔ e.Reaches d := by
  have hl := l.cpusvn.property
  have he := e.cpusvn.property
  unfold Dominated PckExtension.Reaches
  rw [← h1, ← h2]
  refine and_congr ⟨fun h k v hk => ?_, fun h i hi => ?_⟩ (by show _ ≤ _ ↔ _; simp only [Int.ofNat_le])
  · rw [List.getElem?_map, Option.map_eq_some_iff] at hk
    obtain ⟨b, hb, rfl⟩ := hk
    obtain ⟨hlt, rfl⟩ := List.getElem?_eq_some_iff.mp hb
    rw [hl] at hlt
    refine ⟨_, List.getElem?_eq_getElem (by omega), ?_⟩
    have := UInt8.le_iff_toNat_le.mp (h k hlt)
    simpa using this
  · obtain ⟨b, hb, hv⟩ := h i _ (by rw [List.getElem?_map, List.getElem?_eq_getElem (by omega)]; rfl)
    obtain ⟨hlt, rfl⟩ := List.getElem?_eq_some_iff.mp hb
    rw [UInt8.le_iff_toNat_le]
    simpa using hv

theorem first_of_judges {date : String → Option Int} {doc : TcbInfoDoc} {f : Fmspc} {info : SgxTcbInfoOnChain} {e : PckExtension}
    {st : SgxStatus} {u : TcbStatus} (hs : doc.StoredAs date f info) (h : doc.Judges e st) :
    FirstDominated info ⟨e.cpusvn, e.pcesvn, u⟩ st := by
  obtain ⟨_, _, _, hlen, hk⟩ := hs
  obtain ⟨before, l, after, hl, h1, h2, h3⟩ := h
  have hn : before.length < doc.levels.length := by rw [hl]; simp
  have hn' : before.length < info.tcbLevels.length := by omega
  have hget : doc.levels[before.length] = l := by simp [hl]
  obtain ⟨k1, k2, k3⟩ := hk _ hn' hn
  rw [hget] at k1 k2 k3
  refine ⟨info.tcbLevels.take before.length, info.tcbLevels[before.length], info.tcbLevels.drop (before.length + 1), ?_,
    (dominated_iff k1 k2).mpr h1, fun x hx => ?_, ?_⟩
  · rw [List.getElem_cons_drop, List.take_append_drop]
  · obtain ⟨j, hj, rfl⟩ := List.mem_iff_getElem.mp hx
    rw [List.length_take] at hj
    have hj' : j < before.length := by omega
    rw [List.getElem_take]
    obtain ⟨m1, m2, _⟩ := hk j (by omega) (by omega)
    rw [dominated_iff m1 m2]
    have : doc.levels[j]'(by omega) = before[j] := by simp [hl, List.getElem_append_left hj']
    rw [this]
    exact h2 _ (List.getElem_mem hj')
  · generalize info.tcbLevels[before.length].tcbStatus = ts at k3 ⊢
    generalize l.status = name at h3 k3
    have all : ∀ p ∈ statusNames, ∀ q ∈ recordedStatus, p.1 = q.1 → (p.2, q.2) ∈ statusTable := by decide +kernel
    exact all _ k3 _ h3 rfl

theorem window {s : Chain} {a b t : CivilTime} (ha : a.Valid) (hb : b.Valid) (ht : ClockShows s t) (h70 : 1970 ≤ a.year) (h1 : a.Before t)
    (h2 : t.Before b) : 0 ≤ a.seconds * 1000 ∧ a.seconds * 1000 < s.now ∧ (s.now : Int) < b.seconds * 1000 ∧ s.now < 2 ^ 63 := by
  obtain ⟨t1, t2, t3⟩ := ht
  have l1 := CivilTime.seconds_lt ha t1 h1
  have l2 := CivilTime.seconds_lt t1 hb h2
  have l0 : 0 ≤ a.seconds := by
    have h0 : (⟨1970, 1, 1, 0, 0, 0⟩ : CivilTime).seconds = 0 := (C150_calendar a a ha).1
    have hv : (⟨1970, 1, 1, 0, 0, 0⟩ : CivilTime).Valid := by decide
    by_cases hl : a.seconds < (⟨1970, 1, 1, 0, 0, 0⟩ : CivilTime).seconds
    · have := (CivilTime.seconds_lt_iff ha hv).mp hl
      obtain ⟨_, a1, _, a2, _⟩ := ha
      unfold CivilTime.Before at this
      simp only at this
      omega
    · omega
  have hbig : b.seconds < 10 ^ 12 := by
    have h9 : (⟨9999, 12, 31, 23, 59, 59⟩ : CivilTime).seconds < 10 ^ 12 := by decide +kernel
    have hv : (⟨9999, 12, 31, 23, 59, 59⟩ : CivilTime).Valid := by decide
    by_cases hl : (⟨9999, 12, 31, 23, 59, 59⟩ : CivilTime).seconds < b.seconds
    · have := (CivilTime.seconds_lt_iff hv hb).mp hl
      obtain ⟨b1, _, b2, _, b3, b4, b5, b6⟩ := hb
      have := DateText.monthLength_le b.year b.month
      unfold CivilTime.Before at *
      simp only at *
      omega
    · omega
  omega

/-- C150: between its dates the identity of the quoting enclave, in any layout and with any further members, is
accepted from everybody, if Intel signed it. The hypotheses are met by the last examples below. -/
theorem C150_identity_accepted (c : Cfg) (s : Chain) (o : AccountId) (data sig chain : Bytes) (doc : IdentityDoc) (a b t : CivilTime)
    (hr : ReadsJson c.ext) (hx : ReadsDates c.ext) (hd : TextOf data doc.json) (hw : doc.WellFormed)
    (ha : a.Valid) (hb : b.Valid) (hi : doc.issueDate = a.text) (hn : doc.nextUpdate = b.text) (ht : ClockShows s t)
    (h70 : 1970 ≤ a.year) (h1 : a.Before t) (h2 : t.Before b) (hs : SignedByIntel c.ext s.now data sig chain) :
    ∃ s', exec c s (.ext (.signed o) (.registerQuotingEnclave data sig chain)) = .ok s' := by
  obtain ⟨w1, w2, w3, w4⟩ := window ha hb ht h70 h1 h2
  obtain ⟨x1, x2, x3, x4, x5⟩ := hw.hex
  obtain ⟨j, hd1, hd2⟩ := hd
  exact C95_published_accepted c s o data sig chain j doc w4 ((hr _ _).mpr hd1) hd2 hs
    { id := hw.id, version := hw.version, issued := ⟨_, by rw [hi]; exact hx a ha, w1, w2⟩
      next := ⟨_, by rw [hn]; exact hx b hb, w3⟩, evaluation := hw.evaluation, ascii := hw.ascii, miscselect := x1
      miscselectMask := x2, attributes := x3, attributesMask := x4, mrsigner := x5, isvprodid := hw.isvprodid
      levels := fun l hl => by
        obtain ⟨q1, q2, ⟨d, hdv, q3⟩, q4⟩ := hw.levels l hl
        exact ⟨q1, q2, ⟨_, by rw [q3]; exact hx d hdv⟩, q4⟩ }

/-- C154, proved part: whoever has the current documents of Intel, in any layout and with any further members,
and a quote of their enclave can register it: three calls, in this order, the first two from anybody. What is recorded is what the quote and the documents say. Missing: the
same as in `C154_quote_partial`. The hypotheses are met by the last examples below. -/
theorem C154_documents_partial (c : Cfg) (s : Chain) (o1 o2 a : AccountId) (t : CivilTime) (ht : ClockShows s t)
    (hr : ReadsJson c.ext) (hx : ReadsDates c.ext) (hb : ReadsBase64 c.ext)
    -- the identity of the quoting enclave
    (idDoc : IdentityDoc) (idText idSig idPem : Bytes) (i0 i1 : CivilTime) (hid : TextOf idText idDoc.json) (hidw : idDoc.WellFormed)
    (hidp : Published c.ext s.now idText idSig idPem) (hi0 : i0.Valid) (hi1 : i1.Valid) (hidi : idDoc.issueDate = i0.text)
    (hidn : idDoc.nextUpdate = i1.text) (hi70 : 1970 ≤ i0.year) (hit : i0.Before t) (hit' : t.Before i1)
    -- the TCB info of the platform
    (doc : TcbInfoDoc) (text sig pem : Bytes) (d0 d1 : CivilTime) (hd : TextOf text doc.json) (hdw : doc.WellFormed)
    (hdp : Published c.ext s.now text sig pem) (hd0 : d0.Valid) (hd1 : d1.Valid) (hdi : doc.issueDate = d0.text)
    (hdn : doc.nextUpdate = d1.text) (hd70 : 1970 ≤ d0.year) (hdt : d0.Before t) (hdt' : t.Before d1)
    -- the quote
    (q : QuoteParts) (e : PckExtension) (url : Option Bytes) (st : SgxStatus) (hq : MadeOn c.ext s.now q e) (h32 : q.auth.length = 32)
    (hqe : idDoc.Describes q.qeReport.val) (hf : lowerCase doc.fmspc = hexOf e.fmspc.val) (hst : doc.Judges e st)
    (hn : e.pcesvn < 32768) (hp : Absent sgxArc e.ppid.val) (hc : Absent sgxArc e.cpusvn.val) (hkey : sub q.body.val 320 32 = a.val)
    (hlen : q.certs.length ≤ 3948) (hurl : ∀ u, url = some u → u.length ≤ 256)
    (hdb : s.tx.allowDebug = true ∨ (leNat (sub q.body.val 48 8)).testBit 1 = false) :
    ∃ s1 s2 s3 en, exec c s (.ext (.signed o1) (.registerQuotingEnclave idText idSig idPem)) = .ok s1 ∧
      exec c s1 (.ext (.signed o2) (.registerTcbInfo text sig pem)) = .ok s2 ∧
      exec c s2 (.ext (.signed a) (.registerSgxEnclave q.bytes url (.dcap false))) = .ok s3 ∧
      s3.tx.sovereign a = some en ∧ q.Recorded s.now url st (.dcap false) en := by
  obtain ⟨s1, h1⟩ := C150_identity_accepted c s o1 idText idSig idPem idDoc i0 i1 t hr hx hid hidw hi0 hi1 hidi hidn ht hi70 hit hit'
    (signed_of_published hb hidp)
  have hst1 := C149_identity c s s1 _ idText idSig idPem idDoc hr hidw.ascii hid h1
  have hm := stored_matches hst1 hqe
  obtain ⟨n1, g1⟩ : s1.now = s.now ∧ s1.tx.allowDebug = s.tx.allowDebug := by
    have h := h1
    simp only [exec, dispatch] at h
    obtain ⟨_, _, _, _, rfl⟩ := Teerex.registerQuotingEnclave_ok.mp h
    exact ⟨rfl, rfl⟩
  have ht1 : ClockShows s1 t := by unfold ClockShows; rw [n1]; exact ht
  obtain ⟨s2, h2⟩ := C150_tcb_info_accepted c s1 o2 text sig pem doc d0 d1 t hr hx hd hdw hd0 hd1 hdi hdn ht1 hd70 hdt hdt'
    (by rw [n1]; exact signed_of_published hb hdp)
  obtain ⟨f, info, hinfo, hst2⟩ := C149_tcb_info c s1 s2 _ text sig pem doc hr hdw.fmspc.1 hd h2
  have hfe : f = e.fmspc := Subtype.ext (hexOf_inj _ _ (hst2.1.symm.trans hf))
  rw [hfe] at hinfo
  obtain ⟨n2, g2, g3⟩ : s2.now = s1.now ∧ s2.tx.allowDebug = s1.tx.allowDebug ∧ s2.tx.qe = s1.tx.qe := by
    have h := h2
    simp only [exec, dispatch] at h
    obtain ⟨_, _, _, _, _, rfl⟩ := Teerex.registerTcbInfo_ok.mp h
    exact ⟨rfl, rfl, rfl⟩
  have hnow : s2.now = s.now := n2.trans n1
  obtain ⟨s3, en, h3, h4, h5⟩ := C154_quote_partial c s2 a q e url info st hb (by rw [hnow]; exact hq) h32 (by rw [g3]; exact hm) hn hp hc hinfo
    (first_of_judges hst2 hst) hkey hlen hurl (by rw [g2, g1]; exact hdb)
  exact ⟨s1, s2, s3, en, h1, h2, h3, h4, by rw [← hnow]; exact h5⟩

/-- C154: a quote from a platform with PCE SVN 32768 or more is refused (see C153). -/
theorem C154_high_refused (c : Cfg) (s s' : Chain) (o : Origin) (q : QuoteParts) (e : PckExtension) (url : Option Bytes) (p : Bool)
    (hb : ReadsBase64 c.ext) (hq : MadeOn c.ext s.now q e) (hn : 32768 ≤ e.pcesvn) (hn' : e.pcesvn < 65536)
    (hp : Absent sgxArc e.ppid.val) (hc : Absent sgxArc e.cpusvn.val) (hsz : q.auth.length < 65536) (hlen : q.certs.length < 2 ^ 32) :
    exec c s (.ext o (.registerSgxEnclave q.bytes url (.dcap p))) ≠ .ok s' := by
  intro h
  obtain ⟨a, en, _, _, _, hm, _, hatt, _⟩ := register_iff.mp h
  simp only [Attested, hm] at hatt
  obtain ⟨f, t, r, info, hauth, _⟩ := hatt
  obtain ⟨leaf, ⟨i, inter, chain, tail, p1, p2, p3, p4, p5⟩, p6, _⟩ := hq.platform
  obtain ⟨leaf', i', inter', sig, e1, _, _, e2, _⟩ := hauth.leaf
  have L := laid q hsz
  have hcs : certSize q.bytes = q.certs.length := by
    rw [certSize, L.authSize, L.certSize, leNat_toLE _ _ (by omega)]
  rw [hcs, L.authSize, L.certs, p3, C152_chain_partial c.ext chain tail _ hb p1 p2] at e1
  injection e1 with e1 _
  subst e1
  rw [C153_high_refused c.ext leaf e hn hn' hp hc p6] at e2
  cases e2

/-- C154: exactly which honest parties can register. Apart from object identifiers in the provisioning id or the CPU SVN (see
C153), a quote made on a known platform by the known quoting enclave is accepted if and only if the PCE SVN is below 32768 and the
32 bytes that the code takes for the authentication data hash like the authentication data. The hypotheses are met by the examples
below, on both sides. -/
theorem C154_sharp (c : Cfg) (s : Chain) (a : AccountId) (q : QuoteParts) (e : PckExtension) (url : Option Bytes) (info : SgxTcbInfoOnChain)
    (st : SgxStatus) (hb : ReadsBase64 c.ext) (hq : MadeOn c.ext s.now q e) (hid : QeMatches q.qeReport.val 0 s.tx.qe)
    (hn : e.pcesvn < 65536) (hp : Absent sgxArc e.ppid.val) (hc : Absent sgxArc e.cpusvn.val)
    (hi : s.tx.tcb e.fmspc = some info) (hst : FirstDominated info ⟨e.cpusvn, e.pcesvn, .unknown⟩ st)
    (hkey : sub q.body.val 320 32 = a.val) (hlen : q.auth.length + q.certs.length ≤ 3980) (hurl : ∀ u, url = some u → u.length ≤ 256)
    (hdb : s.tx.allowDebug = true ∨ (leNat (sub q.body.val 48 8)).testBit 1 = false) :
    (∃ s', exec c s (.ext (.signed a) (.registerSgxEnclave q.bytes url (.dcap false))) = .ok s') ↔
      e.pcesvn < 32768 ∧
      c.ext.sha256 (q.key.val ++ (q.auth ++ [5, 0] ++ toLE 4 q.certs.length ++ q.certs).take 32) = c.ext.sha256 (q.key.val ++ q.auth) := by
  constructor
  · rintro ⟨s', h⟩
    constructor
    · refine Nat.lt_of_not_le fun hh => ?_
      exact C154_high_refused c s s' _ q e url false hb hq hh hn hp hc (by omega) (by omega) h
    · refine Classical.byContradiction fun hh => ?_
      exact C154_other_sizes_refused c s s' _ q e url false hq (by omega) hh h
  · rintro ⟨h1, h2⟩
    obtain ⟨en, hatt, hr⟩ := made_attested (a := a) (url := url) false hb hq h2 hid h1 hp hc hi hst hlen
    have hmode : s.tx.allowDebug = true ∨ en.buildMode ≠ .debug := by
      rcases hdb with h | h
      · exact .inl h
      · right; intro hd; rw [hr.2.2.2.1.mp hd] at h; cases h
    have hkey' : en.reportData.val.take 32 = a.val := by
      rw [hr.2.2.1, ← hkey]
      simp only [sub, List.take_take]
      rfl
    have hm : en.method = .dcap false := hr.2.2.2.2.2.2.2
    have hpx : en.proxied = false := by simp [SgxEnclave.proxied, hm]
    have hlen' := (laid q (by omega)).length
    exact ⟨_, register_iff.mpr ⟨a, en, rfl, by omega, hurl, hm, hr.2.2.2.2.2.2.1, hatt, hmode, .inl ⟨hpx, hkey', rfl⟩⟩⟩

/-! ### Examples -/

/-- The signer of Intel's quoting enclave. -/
def qeSigner : Bytes := [0x8C, 0x4F, 0x57, 0x75, 0xD7, 0x96, 0x50, 0x3E, 0x96, 0x13, 0x7F, 0x77, 0xC6, 0x8A, 0x82, 0x9A, 0x00, 0x56, 0xAC,
  0x8D, 0xED, 0x70, 0x14, 0x0B, 0x08, 0x1B, 0x09, 0x44, 0x90, 0xC5, 0x7B, 0xFF]

/-- The text of a chain of two certificates. -/
def samplePem : Bytes := Der.ascii "-----BEGIN CERTIFICATE-----\nAQID\n-----END CERTIFICATE-----\n" ++
  Der.ascii "-----BEGIN CERTIFICATE-----\nBA\nU=\n-----END CERTIFICATE-----\n" ++ [0]

/-- A quote with Alice's key. -/
def sampleQuote : QuoteParts where
  header := Arr.zero 44
  body := ⟨reportBody 5 alice.val, by decide +kernel⟩
  sigLen := Arr.zero 4
  signature := Arr.fill 64 1
  key := Arr.fill 64 2
  qeReport := ⟨bytes 48 0 ++ 0x15 :: bytes 79 0 ++ qeSigner ++ bytes 96 0 ++ [1, 0] ++ [7, 0] ++ bytes 60 0 ++ bytes 32 77 ++ bytes 32 0,
    by decide +kernel⟩
  qeSignature := Arr.fill 64 3
  auth := bytes 32 4
  certs := samplePem

/-- A platform with that FMSPC. -/
def samplePlatform : PckExtension := { demoPck with fmspc := ⟨[0, 0x60, 0x6A, 0, 0, 0], rfl⟩, cpusvn := ⟨[4, 5, 3, 3] ++ bytes 12 0, rfl⟩ }

/-- The described readers of texts, a certificate with the extension of the platform, and a hash that differs between keys. -/
def platformCfg : Cfg := { armourCfg with ext := { armourCfg.ext with
  x509Extensions := fun cert => if cert = [1, 2, 3] then some [([0x55, 0x1D, 0x0F], [3, 2]), (oidIntelExt, samplePlatform.der)] else none
  sha256 := fun b => if b = bytes 64 2 ++ bytes 32 4 then bytes 32 77 else bytes 32 78 } }

theorem sample_chain : ChainText platformCfg.ext inJanuary.now samplePem [1, 2, 3] := by
  have t1 : IsText ([Der.ascii "AQID"] : List Bytes).flatten [1, 2, 3] := (Base64.decode_iff _ _).mp (by decide +kernel)
  have t2 : IsText ([Der.ascii "BA", Der.ascii "U="] : List Bytes).flatten [4, 5] := (Base64.decode_iff _ _).mp (by decide +kernel)
  exact ⟨[4, 5], [], _, [0], .cons [Der.ascii "AQID"] _ _ _ (by simp) t1 (.cons [Der.ascii "BA", Der.ascii "U="] _ _ _ (by simp) t2 .nil),
    by simp, by decide +kernel, rfl, rfl⟩

theorem sample_verifies (cert data : Bytes) (sig : Bytes) (h : sig.length = 64) : EcdsaVerifies platformCfg.ext cert data sig := by
  obtain ⟨out, h1, _⟩ := (C73_total sig).mpr h
  exact ⟨out, ((C73_exact sig out).mp h1).2, rfl⟩

theorem sample_published (data : Bytes) : Published platformCfg.ext inJanuary.now data (bytes 64 1) samplePem :=
  ⟨by decide, _, sample_chain, sample_verifies _ _ _ (by decide)⟩

theorem sample_made : MadeOn platformCfg.ext inJanuary.now sampleQuote samplePlatform where
  platform := ⟨_, sample_chain, ⟨_, rfl, by decide +kernel⟩, sample_verifies _ _ _ (by decide)⟩
  key := by decide +kernel
  signed := rfl

theorem sample_describes : sampleIdentity.Describes sampleQuote.qeReport.val := by
  refine ⟨⟨0, 0, ⟨[0, 0, 0, 0], rfl⟩, ⟨[255, 255, 255, 255], rfl⟩, ⟨0x11 :: List.replicate 15 0, rfl⟩,
    ⟨0xfb :: List.replicate 7 255 ++ List.replicate 8 0, rfl⟩, ⟨qeSigner, rfl⟩, 1, [8, 6]⟩, by decide +kernel, by decide +kernel,
    by decide +kernel, by decide +kernel, by decide +kernel, by decide +kernel, by decide +kernel, ?_⟩
  exact ⟨by decide +kernel, by decide +kernel, by decide +kernel, by decide +kernel, 6, by decide +kernel, by decide +kernel⟩

theorem sample_judged : sampleDoc.Judges samplePlatform .groupOutOfDate := by
  refine ⟨[], _, [], rfl, ⟨fun k v h => ?_, by decide⟩, by simp, by decide +kernel⟩
  have hk : k < 16 := (List.getElem?_eq_some_iff.mp h).1
  have hall : ∀ k < 16, ([4, 4, 3, 3, 0, 0, 0, 0, 0, 0, 0, 0, 0, 0, 0, 0] : List Int).getD k 0 ≤ (samplePlatform.cpusvn.val.getD k 0).toNat := by
    decide +kernel
  have h1 := hall k hk
  have hg : samplePlatform.cpusvn.val[k]? = some (samplePlatform.cpusvn.val[k]'(by rw [samplePlatform.cpusvn.property]; exact hk)) :=
    List.getElem?_eq_getElem _
  rw [List.getD_eq_getElem?_getD, h, Option.getD_some, List.getD_eq_getElem?_getD, hg, Option.getD_some] at h1
  exact ⟨_, hg, h1⟩

theorem identity_wellFormed : sampleIdentity.WellFormed where
  id := rfl
  version := rfl
  evaluation := by decide
  ascii := by unfold IdentityDoc.Ascii; decide +kernel
  hex := by
    obtain ⟨o, b1, b2, b3, b4, b5, _⟩ := sample_describes
    exact ⟨⟨_, b1⟩, ⟨_, b2⟩, ⟨_, b3⟩, ⟨_, b4⟩, ⟨_, b5⟩⟩
  isvprodid := by decide
  levels := by
    intro l hl
    simp only [sampleIdentity, List.mem_cons, List.not_mem_nil, or_false] at hl
    rcases hl with rfl | rfl
    · exact ⟨by decide, by decide, ⟨⟨2023, 8, 9, 0, 0, 0⟩, by decide, by decide +kernel⟩, by decide +kernel⟩
    · exact ⟨by decide, by decide, ⟨⟨2021, 11, 10, 0, 0, 0⟩, by decide, by decide +kernel⟩, by decide +kernel⟩

/-- The hypotheses of `C154_documents_partial` are met, and with them those of `C150_identity_accepted` and `C154_quote_partial`. -/
example : ∃ s1 s2 s3 en, exec platformCfg inJanuary (.ext (.signed bob) (.registerQuotingEnclave identityText (bytes 64 1) samplePem)) = .ok s1 ∧
    exec platformCfg s1 (.ext (.signed bob) (.registerTcbInfo fullText (bytes 64 1) samplePem)) = .ok s2 ∧
    exec platformCfg s2 (.ext (.signed alice) (.registerSgxEnclave sampleQuote.bytes none (.dcap false))) = .ok s3 ∧
    s3.tx.sovereign alice = some en ∧ en.mrEnclave.val = bytes 32 7 ∧ en.status = .groupOutOfDate := by
  obtain ⟨s1, s2, s3, en, h1, h2, h3, h4, h5, _, _, _, _, h6, _⟩ := C154_documents_partial platformCfg inJanuary bob bob alice
    ⟨2024, 1, 23, 8, 53, 20⟩ january_clock textCfg_readsJson textCfg_readsDates armourCfg_reads
    sampleIdentity identityText (bytes 64 1) samplePem ⟨2024, 1, 20, 8, 30, 0⟩ ⟨2024, 2, 19, 8, 30, 0⟩ (textOf_identity identity_spells) identity_wellFormed
    (sample_published _) (by decide) (by decide) (by decide +kernel) (by decide +kernel) (by decide) (by decide) (by decide)
    sampleDoc fullText (bytes 64 1) samplePem ⟨2024, 1, 20, 8, 30, 0⟩ ⟨2024, 2, 19, 8, 30, 0⟩ full_says sample_wellFormed
    (sample_published _) (by decide) (by decide) (by decide +kernel) (by decide +kernel) (by decide) (by decide) (by decide)
    sampleQuote samplePlatform none .groupOutOfDate sample_made (by decide +kernel) sample_describes (by decide +kernel) sample_judged (by decide)
    (absent_of_find (by decide) (by decide)) (absent_of_find (by decide) (by decide)) (by decide +kernel) (by decide +kernel) (by simp)
    (.inr (by decide +kernel))
  exact ⟨s1, s2, s3, en, h1, h2, h3, h4, h5.trans (by decide +kernel), h6⟩

/-- The same platform with PCE SVN 40000. -/
def highPlatform : PckExtension := { samplePlatform with pcesvn := 40000 }

def highCfg : Cfg := { platformCfg with ext := { platformCfg.ext with x509Extensions := fun _ => some [(oidIntelExt, highPlatform.der)] } }

theorem high_made : MadeOn highCfg.ext inJanuary.now sampleQuote highPlatform where
  platform := ⟨_, sample_chain, ⟨_, rfl, by decide +kernel⟩,
    sample_verifies [1, 2, 3] sampleQuote.qeReport.val sampleQuote.qeSignature.val (by decide)⟩
  key := by decide +kernel
  signed := rfl

/-- The hypotheses of `C154_high_refused` are met by that platform. -/
example : ReadsBase64 highCfg.ext ∧ MadeOn highCfg.ext inJanuary.now sampleQuote highPlatform ∧ 32768 ≤ highPlatform.pcesvn ∧
    highPlatform.pcesvn < 65536 ∧ Absent sgxArc highPlatform.ppid.val ∧ Absent sgxArc highPlatform.cpusvn.val :=
  ⟨armourCfg_reads, high_made, by decide, by decide, absent_of_find (by decide) (by decide), absent_of_find (by decide) (by decide)⟩

/-- The quoting enclave put 40 bytes of authentication data into the quote, and the hash differs. -/
def longQuote : QuoteParts := { sampleQuote with auth := bytes 40 4 }

def longCfg : Cfg := { platformCfg with ext := { platformCfg.ext with
  sha256 := fun b => if b = bytes 64 2 ++ bytes 40 4 then bytes 32 77 else bytes 32 78 } }

/-- The hypotheses of `C154_other_sizes_refused` are met by that quote. -/
example : MadeOn longCfg.ext inJanuary.now longQuote samplePlatform ∧ longQuote.auth.length < 65536 ∧
    longCfg.ext.sha256 (longQuote.key.val ++ (longQuote.auth ++ [5, 0] ++ toLE 4 longQuote.certs.length ++ longQuote.certs).take 32) ≠
      longCfg.ext.sha256 (longQuote.key.val ++ longQuote.auth) :=
  ⟨⟨⟨_, sample_chain, ⟨_, rfl, by decide +kernel⟩, sample_verifies [1, 2, 3] longQuote.qeReport.val longQuote.qeSignature.val (by decide)⟩,
    by decide +kernel, rfl⟩, by decide +kernel, by decide +kernel⟩

/-- The hypotheses of `C154_proxied_partial` are met: Bob registers Alice's quote. -/
example : ∃ s s' m en, exec platformCfg s (.ext (.signed bob) (.registerSgxEnclave sampleQuote.bytes none (.dcap true))) = .ok s' ∧
    m.val = bytes 32 7 ∧ s'.tx.proxied ⟨m, bob, .opaque (sub sampleQuote.body.val 320 64 ++ [0, 0])⟩ = some en ∧ en.status = .ok := by
  obtain ⟨o, _, _, _, _, _, _, _, hm⟩ := sample_describes
  let info : SgxTcbInfoOnChain := ⟨0, 0, [⟨Arr.zero 16, 5, .upToDate⟩]⟩
  let s : Chain := { inJanuary with tx := { inJanuary.tx with qe := o, tcb := fun _ => some info } }
  have hd : FirstDominated info ⟨samplePlatform.cpusvn, samplePlatform.pcesvn, .unknown⟩ .ok := by
    refine ⟨[], _, [], rfl, ⟨fun i hi => ?_, by decide⟩, by simp, by decide⟩
    have : ∀ i (h : i < 16), (Arr.zero 16).val[i] ≤ samplePlatform.cpusvn.val[i]'(by rw [samplePlatform.cpusvn.property]; exact h) := by
      decide +kernel
    exact this i hi
  obtain ⟨s', m, en, h1, h2, h3, h4⟩ := C154_proxied_partial platformCfg s bob sampleQuote samplePlatform none info .ok armourCfg_reads
    sample_made (by decide +kernel) hm (by decide) (absent_of_find (by decide) (by decide)) (absent_of_find (by decide) (by decide)) rfl hd
    (by decide +kernel) (by simp) (.inr (by decide +kernel))
  exact ⟨s, s', m, en, h1, h2.trans (by decide +kernel), h3, h4.2.2.2.2.2.1⟩

/-- The hypotheses of `C154_sharp` are met: the quote with authentication data of 32 bytes is accepted, and the one with 40 bytes is not. -/
example : ∃ s : Chain, (∃ s', exec platformCfg s (.ext (.signed alice) (.registerSgxEnclave sampleQuote.bytes none (.dcap false))) = .ok s') ∧
    ¬ ∃ s', exec longCfg s (.ext (.signed alice) (.registerSgxEnclave longQuote.bytes none (.dcap false))) = .ok s' := by
  obtain ⟨o, _, _, _, _, _, _, _, hm⟩ := sample_describes
  let info : SgxTcbInfoOnChain := ⟨0, 0, [⟨Arr.zero 16, 5, .upToDate⟩]⟩
  let s : Chain := { inJanuary with tx := { inJanuary.tx with qe := o, tcb := fun _ => some info } }
  have hd : FirstDominated info ⟨samplePlatform.cpusvn, samplePlatform.pcesvn, .unknown⟩ .ok := by
    refine ⟨[], _, [], rfl, ⟨fun i hi => ?_, by decide⟩, by simp, by decide⟩
    have : ∀ i (h : i < 16), (Arr.zero 16).val[i] ≤ samplePlatform.cpusvn.val[i]'(by rw [samplePlatform.cpusvn.property]; exact h) := by
      decide +kernel
    exact this i hi
  refine ⟨s, (C154_sharp platformCfg s alice sampleQuote samplePlatform none info .ok armourCfg_reads
    sample_made hm (by decide) (absent_of_find (by decide) (by decide)) (absent_of_find (by decide) (by decide)) rfl hd
    (by decide +kernel) (by decide +kernel) (by simp) (.inr (by decide +kernel))).mpr ⟨by decide, by decide +kernel⟩, fun h => ?_⟩
  have := ((C154_sharp longCfg s alice longQuote samplePlatform none info .ok armourCfg_reads
    ⟨⟨_, sample_chain, ⟨_, rfl, by decide +kernel⟩, sample_verifies [1, 2, 3] longQuote.qeReport.val longQuote.qeSignature.val (by decide)⟩,
      by decide +kernel, rfl⟩ hm (by decide) (absent_of_find (by decide) (by decide)) (absent_of_find (by decide) (by decide)) rfl hd
    (by decide +kernel) (by decide +kernel) (by simp) (.inr (by decide +kernel))).mp h).2
  revert this
  decide +kernel

/-- It cannot register although the identity of its quoting enclave and its TCB info are known. -/
theorem C154_refuted : ¬ C154_Full := by
  intro h
  obtain ⟨o, _, _, _, _, _, _, _, hm⟩ := sample_describes
  let info : SgxTcbInfoOnChain := ⟨0, 0, [⟨Arr.zero 16, 5, .upToDate⟩]⟩
  let s : Chain := { inJanuary with tx := { inJanuary.tx with qe := o, tcb := fun _ => some info } }
  have hd : FirstDominated info ⟨highPlatform.cpusvn, highPlatform.pcesvn, .unknown⟩ .ok := by
    refine ⟨[], _, [], rfl, ⟨fun i hi => ?_, by decide⟩, by simp, by decide⟩
    have : ∀ i (h : i < 16), (Arr.zero 16).val[i] ≤ highPlatform.cpusvn.val[i]'(by rw [highPlatform.cpusvn.property]; exact h) := by decide +kernel
    exact this i hi
  obtain ⟨s', _, h1, _⟩ := h highCfg s alice sampleQuote highPlatform none info .ok armourCfg_reads high_made hm (by decide) rfl hd
    (by decide +kernel) (by decide +kernel) (by simp) (.inr (by decide +kernel))
  exact C154_high_refused highCfg s s' _ sampleQuote highPlatform none false armourCfg_reads high_made (by decide) (by decide)
    (absent_of_find (by decide) (by decide)) (absent_of_find (by decide) (by decide)) (by decide +kernel) (by decide +kernel) h1

end Verif
