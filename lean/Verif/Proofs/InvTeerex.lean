import Verif.Proofs.Inversion

/-!
# Inversion lemmas for teerex
-/

namespace Verif

namespace Teerex

theorem sgxErr_panic {e : SgxError} : sgxErr e = .panic ↔ e = .panic := by
  cases e <;> simp [sgxErr]

theorem timestamp_ok {c : Cfg} {s : Chain} {ts : Nat} {u : Unit} :
    ensureTimestampWithin24Hours c s ts = .ok u ↔ ts ≤ s.now ∧ s.now - ts < c.momentsPerDay := by
  unfold ensureTimestampWithin24Hours
  split
  · simp only [reduceCtorEq, false_iff]; omega
  · split
    · simp only [true_iff]; omega
    · simp only [reduceCtorEq, false_iff]; omega

theorem attest_ias_ok {c : Cfg} {s : Chain} {a : AccountId} {proof : Bytes} {e : SgxEnclave} :
    attest c s a proof .ias = .ok e ↔ ∃ r, verifyIasReport c.ext proof = .ok r ∧ r.timestamp ≤ s.now ∧
      s.now - r.timestamp < c.momentsPerDay ∧ a = lower32 r.reportData ∧
      e = { reportData := r.reportData, mrEnclave := r.mrEnclave, mrSigner := r.mrSigner,
            timestamp := r.timestamp, url := none, buildMode := r.buildMode, method := .ias,
            status := r.status } := by
  unfold attest
  inv_simp
  simp only [timestamp_ok, SgxEnclave.new, exists_const]
  constructor
  · rintro ⟨r, h, h1, h2, h3⟩
    exact ⟨r, h, h1.1, h1.2, h2, h3.symm⟩
  · rintro ⟨r, h, h1, h2, h3, h4⟩
    exact ⟨r, h, ⟨h1, h2⟩, h3, h4.symm⟩

theorem attest_dcap_ok {c : Cfg} {s : Chain} {a : AccountId} {proof : Bytes} {p : Bool} {e : SgxEnclave} :
    attest c s a proof (.dcap p) = .ok e ↔ ∃ fmspc tcb r ref st,
      verifyDcapQuote c.ext proof s.now s.tx.qe = .ok (fmspc, tcb, r) ∧
      (p = true ∨ a = lower32 r.reportData) ∧ s.tx.tcb fmspc = some ref ∧ ref.verifyExaminee tcb = some st ∧
      e = { reportData := r.reportData, mrEnclave := r.mrEnclave, mrSigner := r.mrSigner,
            timestamp := r.timestamp, url := none, buildMode := r.buildMode, method := .dcap p,
            status := st } := by
  unfold attest
  inv_simp
  simp only [Bool.or_eq_true, decide_eq_true_eq, SgxEnclave.new]
  constructor
  · rintro ⟨f, t, r, h, h1, ref, h2, st, h3, rfl⟩
    exact ⟨f, t, r, ref, st, h, h1, h2, h3, rfl⟩
  · rintro ⟨f, t, r, ref, st, h, h1, h2, h3, rfl⟩
    exact ⟨f, t, r, h, h1, ref, h2, st, h3, rfl⟩

/-- The report data of an enclave that skipped attestation: the sender, then zeros. -/
def skipReportData (a : AccountId) : SgxReportData := ⟨a.val ++ List.replicate 32 0, by simp [a.property]⟩

theorem attest_skip_ok {c : Cfg} {s : Chain} {a : AccountId} {proof : Bytes} {p : Bool} {e : SgxEnclave} :
    attest c s a proof (.skip p) = .ok e ↔ s.tx.allowSkip = true ∧
      e = { reportData := skipReportData a, mrEnclave := mrEnclaveOfProof proof, mrSigner := Arr.zero 32,
            timestamp := s.now, url := none, buildMode := .production, method := .skip p,
            status := .invalid } := by
  have hw : ∀ e : SgxEnclave, e.withPubkey a.val = some { e with reportData := skipReportData a } := by
    intro e
    have := a.property
    simp [SgxEnclave.withPubkey, skipReportData, this]
  unfold attest
  inv_simp
  simp only [hw, Option.some.injEq, exists_eq_left', SgxEnclave.new]
  constructor
  · rintro ⟨h, rfl⟩; exact ⟨h, rfl⟩
  · rintro ⟨h, rfl⟩; exact ⟨h, rfl⟩

theorem addEnclave_ok {s s' : Chain} {a : AccountId} {e : SgxEnclave} :
    addEnclave s a e = .ok s' ↔
      (e.proxied = false ∧ s' = { s with tx := { s.tx with sovereign := upd s.tx.sovereign a (some e) } }) ∨
      (e.proxied = true ∧ ∃ g, e.instanceSigner = some g ∧
        s' = { s with tx := { s.tx with
          proxied := upd s.tx.proxied ⟨e.fingerprint, a, g⟩ (some e) } }) := by
  unfold addEnclave
  split
  · rename_i h
    inv_simp
    simp only [h, true_and, Bool.true_eq_false, false_and, false_or]
    constructor
    · rintro ⟨g, h, rfl⟩; exact ⟨g, h, rfl⟩
    · rintro ⟨g, h, rfl⟩; exact ⟨g, h, rfl⟩
  · rename_i h
    simp only [Bool.not_eq_true] at h
    simp only [Except.ok.injEq, h, true_and, Bool.false_eq_true, false_and, or_false]
    exact eq_comm

@[simp] theorem withUrl_proxied (e : SgxEnclave) (u : Option Bytes) : (e.withUrl u).proxied = e.proxied := by
  cases u <;> rfl
@[simp] theorem withUrl_signer (e : SgxEnclave) (u : Option Bytes) :
    (e.withUrl u).instanceSigner = e.instanceSigner := by
  cases u <;> rfl
@[simp] theorem withUrl_fingerprint (e : SgxEnclave) (u : Option Bytes) :
    (e.withUrl u).fingerprint = e.fingerprint := by
  cases u <;> rfl
@[simp] theorem withUrl_status (e : SgxEnclave) (u : Option Bytes) : (e.withUrl u).status = e.status := by
  cases u <;> rfl
@[simp] theorem withUrl_method (e : SgxEnclave) (u : Option Bytes) : (e.withUrl u).method = e.method := by
  cases u <;> rfl
@[simp] theorem withUrl_reportData (e : SgxEnclave) (u : Option Bytes) :
    (e.withUrl u).reportData = e.reportData := by
  cases u <;> rfl
@[simp] theorem withUrl_buildMode (e : SgxEnclave) (u : Option Bytes) :
    (e.withUrl u).buildMode = e.buildMode := by
  cases u <;> rfl
@[simp] theorem withUrl_timestamp (e : SgxEnclave) (u : Option Bytes) :
    (e.withUrl u).timestamp = e.timestamp := by
  cases u <;> rfl
@[simp] theorem withUrl_mrEnclave (e : SgxEnclave) (u : Option Bytes) :
    (e.withUrl u).mrEnclave = e.mrEnclave := by
  cases u <;> rfl

theorem registerSgxEnclave_ok {c : Cfg} {s s' : Chain} {o : Origin} {proof : Bytes} {url : Option Bytes}
    {m : SgxAttestationMethod} :
    registerSgxEnclave c s o proof url m = .ok s' ↔ ∃ a e, o = .signed a ∧ proof.length ≤ 5000 ∧
      (∀ u, url = some u → u.length ≤ 256) ∧ attest c s a proof m = .ok e ∧
      (s.tx.allowDebug = true ∨ e.buildMode ≠ .debug) ∧
      ((e.proxied = false ∧ s' = { s with tx := { s.tx with
          sovereign := upd s.tx.sovereign a (some (e.withUrl url))
          events := .addedSgxEnclave a url (some e.status) e.method :: s.tx.events } }) ∨
       (e.proxied = true ∧ ∃ g, e.instanceSigner = some g ∧ s' = { s with tx := { s.tx with
          proxied := upd s.tx.proxied ⟨e.fingerprint, a, g⟩ (some (e.withUrl url))
          events := .addedSgxEnclave a url (some e.status) e.method :: s.tx.events } })) := by
  unfold registerSgxEnclave maxProofLen maxUrlLen emit
  inv_simp
  simp only [Bool.or_eq_true, bne_iff_ne, addEnclave_ok]
  have hu : (Option.all (fun u : Bytes => decide (u.length ≤ 256)) url = true) ↔
      ∀ u, url = some u → u.length ≤ 256 := by
    cases url <;> simp
  simp only [hu, withUrl_proxied, withUrl_signer, withUrl_fingerprint, withUrl_status, withUrl_method]
  constructor
  · rintro ⟨a, rfl, h1, h2, e, h3, h4, _, (⟨h5, rfl⟩ | ⟨h5, g, h6, rfl⟩), rfl⟩
    · exact ⟨a, e, rfl, h1, h2, h3, h4, .inl ⟨h5, rfl⟩⟩
    · exact ⟨a, e, rfl, h1, h2, h3, h4, .inr ⟨h5, g, h6, rfl⟩⟩
  · rintro ⟨a, e, rfl, h1, h2, h3, h4, (⟨h5, rfl⟩ | ⟨h5, g, h6, rfl⟩)⟩
    · exact ⟨a, rfl, h1, h2, e, h3, h4, _, .inl ⟨h5, rfl⟩, rfl⟩
    · exact ⟨a, rfl, h1, h2, e, h3, h4, _, .inr ⟨h5, g, h6, rfl⟩, rfl⟩

theorem unregisterSovereignEnclave_ok {c : Cfg} {s s' : Chain} {o : Origin} {a : AccountId} :
    unregisterSovereignEnclave c s o a = .ok s' ↔ ∃ b e, o = .signed b ∧ s.tx.sovereign a = some e ∧
      e.timestamp < s.now - c.maxRenewal ∧
      s' = { s with tx := { s.tx with
        sovereign := upd s.tx.sovereign a none
        events := .removedSovereignEnclave a :: s.tx.events } } := by
  unfold unregisterSovereignEnclave emit
  inv_simp
  constructor
  · rintro ⟨b, rfl, e, h1, h2, rfl⟩; exact ⟨b, e, rfl, h1, h2, rfl⟩
  · rintro ⟨b, e, rfl, h1, h2, rfl⟩; exact ⟨b, rfl, e, h1, h2, rfl⟩

theorem unregisterProxiedEnclave_ok {c : Cfg} {s s' : Chain} {o : Origin} {a : EnclaveInstanceAddress} :
    unregisterProxiedEnclave c s o a = .ok s' ↔ ∃ b e, o = .signed b ∧ s.tx.proxied a = some e ∧
      e.timestamp < s.now - c.maxRenewal ∧
      s' = { s with tx := { s.tx with
        proxied := upd s.tx.proxied a none
        events := .removedProxiedEnclave a :: s.tx.events } } := by
  unfold unregisterProxiedEnclave emit
  inv_simp
  constructor
  · rintro ⟨b, rfl, e, h1, h2, rfl⟩; exact ⟨b, e, rfl, h1, h2, rfl⟩
  · rintro ⟨b, e, rfl, h1, h2, rfl⟩; exact ⟨b, rfl, e, h1, h2, rfl⟩

theorem verifyCollateralCerts_ok {c : Cfg} {s : Chain} {chain leaf : Bytes} :
    verifyCollateralCerts c s chain = .ok leaf ↔ ∃ x rest, extractCerts c.ext chain = leaf :: x :: rest ∧
      c.ext.certParses leaf = true ∧ c.ext.dcapChainValid leaf (x :: rest) (s.now / 1000) = true := by
  unfold verifyCollateralCerts verifyCertificateChain
  inv_simp
  generalize extractCerts c.ext chain = l
  match l with
  | [] => simp
  | [y] => simp
  | y :: x :: rest => 
    simp
    constructor
    · rintro ⟨h1, h2, rfl⟩; exact ⟨x, rest, ⟨rfl, rfl, rfl⟩, h1, h2⟩
    · rintro ⟨_, _, ⟨rfl, rfl, rfl⟩, h1, h2⟩; exact ⟨h1, h2, rfl⟩

theorem timeToI64_ok {t : Nat} {i : Int} : timeToI64 t = .ok i ↔ t < 2 ^ 63 ∧ i = t := by
  unfold timeToI64
  split
  · rename_i h
    simp only [Except.ok.injEq, h, true_and]; exact eq_comm
  · rename_i h
    simp only [reduceCtorEq, h, false_and]

theorem verifyQuotingEnclave_ok {c : Cfg} {s : Chain} {i g ch : Bytes} {qe : SgxQuotingEnclave} :
    verifyQuotingEnclave c s i g ch = .ok qe ↔ ∃ leaf x rest der ident,
      extractCerts c.ext ch = leaf :: x :: rest ∧
      c.ext.certParses leaf = true ∧ c.ext.dcapChainValid leaf (x :: rest) (s.now / 1000) = true ∧
      encodeAsDer g = .ok der ∧ c.ext.certVerifySig .ecdsaP256Sha256 leaf i der = true ∧
      c.ext.parseIdentity i = some ident ∧ s.now < 2 ^ 63 ∧
      ident.isValid s.now = true ∧ ident.toQuotingEnclave = some qe := by
  unfold verifyQuotingEnclave deserializeEnclaveIdentity verifySignature
  inv_simp
  simp only [verifyCollateralCerts_ok, timeToI64_ok]
  constructor
  · rintro ⟨leaf, ⟨x, rest, h1, h2, h3⟩, id, ⟨der, h4, h5, h6⟩, t, ⟨h7, rfl⟩, h8⟩
    split at h8
    · rename_i h9
      exact ⟨leaf, x, rest, der, id, h1, h2, h3, h4, h5, h6, h7, h9, by simpa using h8⟩
    · simp at h8
  · rintro ⟨leaf, x, rest, der, id, h1, h2, h3, h4, h5, h6, h7, h8, h9⟩
    exact ⟨leaf, ⟨x, rest, h1, h2, h3⟩, id, ⟨der, h4, h5, h6⟩, _, ⟨h7, rfl⟩, by simp [h8, h9]⟩

theorem verifyTcbInfo_ok {c : Cfg} {s : Chain} {i g ch : Bytes} {f : Fmspc} {t : SgxTcbInfoOnChain} :
    verifyTcbInfo c s i g ch = .ok (f, t) ↔ ∃ leaf x rest der info,
      extractCerts c.ext ch = leaf :: x :: rest ∧
      c.ext.certParses leaf = true ∧ c.ext.dcapChainValid leaf (x :: rest) (s.now / 1000) = true ∧
      encodeAsDer g = .ok der ∧ c.ext.certVerifySig .ecdsaP256Sha256 leaf i der = true ∧
      c.ext.parseTcbInfo i = some info ∧ s.now < 2 ^ 63 ∧
      info.isValid s.now = true ∧ info.toChain = some (f, t) := by
  unfold verifyTcbInfo deserializeTcbInfo verifySignature
  inv_simp
  simp only [verifyCollateralCerts_ok, timeToI64_ok]
  constructor
  · rintro ⟨leaf, ⟨x, rest, h1, h2, h3⟩, id, ⟨der, h4, h5, h6⟩, t, ⟨h7, rfl⟩, h8⟩
    split at h8
    · rename_i h9
      exact ⟨leaf, x, rest, der, id, h1, h2, h3, h4, h5, h6, h7, h9, by simpa using h8⟩
    · simp at h8
  · rintro ⟨leaf, x, rest, der, id, h1, h2, h3, h4, h5, h6, h7, h8, h9⟩
    exact ⟨leaf, ⟨x, rest, h1, h2, h3⟩, id, ⟨der, h4, h5, h6⟩, _, ⟨h7, rfl⟩, by simp [h8, h9]⟩

theorem registerQuotingEnclave_ok {c : Cfg} {s s' : Chain} {o : Origin} {i g ch : Bytes} :
    registerQuotingEnclave c s o i g ch = .ok s' ↔ ∃ a qe, o = .signed a ∧
      verifyQuotingEnclave c s i g ch = .ok qe ∧
      s' = { s with tx := { s.tx with
        qe := qe
        events := .sgxQuotingEnclaveRegistered qe :: s.tx.events } } := by
  unfold registerQuotingEnclave emit
  inv_simp
  constructor
  · rintro ⟨a, rfl, qe, h, rfl⟩; exact ⟨a, qe, rfl, h, rfl⟩
  · rintro ⟨a, qe, rfl, h, rfl⟩; exact ⟨a, rfl, qe, h, rfl⟩

theorem registerTcbInfo_ok {c : Cfg} {s s' : Chain} {o : Origin} {i g ch : Bytes} :
    registerTcbInfo c s o i g ch = .ok s' ↔ ∃ a f t, o = .signed a ∧
      verifyTcbInfo c s i g ch = .ok (f, t) ∧
      s' = { s with tx := { s.tx with
        tcb := upd s.tx.tcb f (some t)
        events := .sgxTcbInfoRegistered f t :: s.tx.events } } := by
  unfold registerTcbInfo emit
  inv_simp
  constructor
  · rintro ⟨a, rfl, f, t, h, rfl⟩; exact ⟨a, f, t, rfl, h, rfl⟩
  · rintro ⟨a, f, t, rfl, h, rfl⟩; exact ⟨a, rfl, f, t, h, rfl⟩

theorem setSecurityFlags_ok {s s' : Chain} {o : Origin} {a d : Bool} :
    setSecurityFlags s o a d = .ok s' ↔ o = .root ∧
      s' = { s with tx := { s.tx with
        allowSkip := a
        allowDebug := d
        events := .updatedSecurityFlags a d :: s.tx.events } } := by
  unfold setSecurityFlags emit
  inv_simp
  simp only [eq_comm]

end Teerex

end Verif
