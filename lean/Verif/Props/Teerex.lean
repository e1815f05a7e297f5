import Verif.Proofs.TeerexInv
import Verif.Proofs.Teerdays
import Verif.Spec.DemoSgx

/-!
# Teerex: properties C12 to C26, C70 to C72, C76
-/

namespace Verif

open Demo

/-! ### C12 A sovereign enclave is registered under its own attested key -/

/-- C12: every entry of the sovereign registry carries its own account in the first 32 bytes of its report data,
and stems from an accepted registration by that account whose proof established the entry. -/
theorem C12_sovereign_own_key (c : Cfg) (s0 : Chain) (ops : List Op) (h0 : NoEnclaves s0) (a : AccountId)
    (e : SgxEnclave) (h : (run c s0 ops).tx.sovereign a = some e) :
    e.reportData.val.take 32 = a.val ∧
    (e.method = .ias ∨ e.method = .dcap false ∨ e.method = .skip false) ∧
    ∃ s proof, (s, .ext (.signed a) (.registerSgxEnclave proof e.url e.method)) ∈ accepted c s0 ops ∧
      Attested c s a proof e := by
  refine history_induction (c := c) (s0 := s0) (P := fun s acc => ∀ e, s.tx.sovereign a = some e →
    e.reportData.val.take 32 = a.val ∧ (e.method = .ias ∨ e.method = .dcap false ∨ e.method = .skip false) ∧
    ∃ s proof, (s, .ext (.signed a) (.registerSgxEnclave proof e.url e.method)) ∈ acc ∧
      Attested c s a proof e) ?_ ?_ ops e h
  · intro e he; rw [h0.1] at he; simp at he
  · intro s s' op acc ih hx e he
    rcases sovereign_effect hx a with h | ⟨proof, url, m, e', rfl, rfl, rfl, h1, h2, h3, h4, h5, h6, h7⟩ |
        ⟨_, _, _, _, _, h⟩
    · rw [h] at he
      obtain ⟨h1, h2, s1, p, h3, h4⟩ := ih e he
      exact ⟨h1, h2, s1, p, by simp [h3], h4⟩
    · rw [h7] at he
      simp only [Option.some.injEq] at he
      subst he
      refine ⟨h6, ?_, s, proof, by simp, h3⟩
      cases hm : e'.method with
      | ias => simp
      | dcap p => cases p <;> simp_all [SgxEnclave.proxied]
      | skip p => cases p <;> simp_all [SgxEnclave.proxied]
    · rw [h] at he; simp at he

/-- The example: Alice's enclave registered with a DCAP quote, and with an IAS report. -/
example : NoEnclaves start ∧ ((run okCfg start dcapHistory).tx.sovereign alice).map (·.method) = some (.dcap false) ∧
    ((run okCfg start [.ext (.signed alice) (.registerSgxEnclave iasProof none .ias)]).tx.sovereign alice).map
      (·.method) = some .ias :=
  ⟨⟨fun _ => rfl, fun _ => rfl⟩, by decide +kernel, by decide +kernel⟩

/-! ### C13 A proxied enclave's address identifies registrar, code and key -/

/-- C13: every entry of the proxied registry is stored under the address made of its measurement, the account
that submitted it and its 64-byte report data (padded to 66 bytes); it was accepted as a proxied registration. -/
theorem C13_proxied_address (c : Cfg) (s0 : Chain) (ops : List Op) (h0 : NoEnclaves s0)
    (p : EnclaveInstanceAddress) (e : SgxEnclave) (h : (run c s0 ops).tx.proxied p = some e) :
    p.fingerprint = e.mrEnclave ∧ p.signer = .opaque (e.reportData.val ++ [0, 0]) ∧
    (e.method = .dcap true ∨ e.method = .skip true) ∧
    ∃ s proof, (s, .ext (.signed p.registrar) (.registerSgxEnclave proof e.url e.method)) ∈ accepted c s0 ops ∧
      Attested c s p.registrar proof e := by
  refine history_induction (c := c) (s0 := s0) (P := fun s acc => ∀ e, s.tx.proxied p = some e →
    p.fingerprint = e.mrEnclave ∧ p.signer = .opaque (e.reportData.val ++ [0, 0]) ∧
    (e.method = .dcap true ∨ e.method = .skip true) ∧
    ∃ s proof, (s, .ext (.signed p.registrar) (.registerSgxEnclave proof e.url e.method)) ∈ acc ∧
      Attested c s p.registrar proof e) ?_ ?_ ops e h
  · intro e he; rw [h0.2] at he; simp at he
  · intro s s' op acc ih hx e he
    rcases proxied_effect hx p with h | ⟨proof, url, m, e', rfl, rfl, rfl, h1, h2, h3, h4, h5, h6, h7, h8⟩ |
        ⟨_, _, _, _, _, h⟩
    · rw [h] at he
      obtain ⟨h1, h2, h3, s1, p, h4, h5⟩ := ih e he
      exact ⟨h1, h2, h3, s1, p, by simp [h4], h5⟩
    · rw [h8] at he
      simp only [Option.some.injEq] at he
      subst he
      refine ⟨h6, h7, ?_, s, proof, by simp, h3⟩
      unfold SgxEnclave.proxied at h5
      split at h5 <;> simp_all
    · rw [h] at he; simp at he

example : NoEnclaves start ∧ ((run okCfg start dcapHistory).tx.proxied
    ⟨Arr.fill 32 7, bob, .opaque (alice.val ++ bytes 32 9 ++ [0, 0])⟩).map (·.method) = some (.dcap true) :=
  ⟨⟨fun _ => rfl, fun _ => rfl⟩, by decide +kernel⟩

/-- C13, distinct report data give distinct addresses: one address never stands for two different keys, not even
in two different histories. -/
theorem C13_distinct_keys (c c' : Cfg) (s0 s0' : Chain) (ops ops' : List Op) (h0 : NoEnclaves s0)
    (h0' : NoEnclaves s0') (p : EnclaveInstanceAddress) (e e' : SgxEnclave)
    (h : (run c s0 ops).tx.proxied p = some e) (h' : (run c' s0' ops').tx.proxied p = some e') :
    e.reportData = e'.reportData ∧ e.mrEnclave = e'.mrEnclave := by
  obtain ⟨h1, h2, _⟩ := C13_proxied_address c s0 ops h0 p e h
  obtain ⟨h3, h4, _⟩ := C13_proxied_address c' s0' ops' h0' p e' h'
  rw [h2] at h4
  simp only [AnySigner.opaque.injEq, List.append_cancel_right_eq] at h4
  exact ⟨Subtype.ext h4, h1.symm.trans h3⟩

/-- The same chip and enclave code with another key gets another address. -/
example : ∃ e, (run okCfg start dcapHistory).tx.proxied
    ⟨Arr.fill 32 7, bob, .opaque (alice.val ++ bytes 32 9 ++ [0, 0])⟩ = some e :=
  Option.isSome_iff_exists.mp (by decide +kernel)

/-- The address of Bob's proxied registration of Alice's quote. -/
def proxiedAddress : EnclaveInstanceAddress :=
  ⟨Arr.fill 32 7, bob, .opaque (alice.val ++ bytes 32 9 ++ [0, 0])⟩

example : NoEnclaves start ∧ ((run okCfg start dcapHistory).tx.proxied proxiedAddress).map (·.method) =
    some (.dcap true) :=
  ⟨⟨fun _ => rfl, fun _ => rfl⟩, by decide +kernel⟩

/-! ### C14, C15 Accepted DCAP quotes -/

/-- C14: `verify_dcap_quote` accepts a byte string exactly if all the signatures, hashes, versions and the
identity of the quoting enclave check out at the documented offsets, and it returns the signed bytes. -/
theorem C14_quote_authentic (x : Ext) (raw : Bytes) (time : Nat) (qe : SgxQuotingEnclave) (f : Fmspc)
    (t : TcbVersionStatus) (r : SgxVerifiedReport) :
    verifyDcapQuote x raw time qe = .ok (f, t, r) ↔ AuthenticQuote x raw time qe f t r :=
  verifyDcapQuote_ok

/-- The quoting enclave identity used in the example. -/
def demoQe : SgxQuotingEnclave := (identity 3).toQuotingEnclave.getD .default

theorem demoQuote_accepted : ∃ f t r, verifyDcapQuote okExt (quote 0 alice.val) 5000 demoQe = .ok (f, t, r) := by
  have : (verifyDcapQuote okExt (quote 0 alice.val) 5000 demoQe).isOk = true := by decide +kernel
  cases h : verifyDcapQuote okExt (quote 0 alice.val) 5000 demoQe with
  | ok v => exact ⟨v.1, v.2.1, v.2.2, rfl⟩
  | error e => rw [h] at this; simp [Except.isOk, Except.toBool] at this

example : ∃ f t r, AuthenticQuote okExt (quote 0 alice.val) 5000 demoQe f t r := by
  obtain ⟨f, t, r, h⟩ := demoQuote_accepted
  exact ⟨f, t, r, verifyDcapQuote_ok.mp h⟩

/-- C15: the length of an accepted quote is exactly the one determined by its two size fields (bytes 1012-1013
and the four bytes after the authentication data and type), and certification data has at most 65000 bytes. -/
theorem C15_no_slack (x : Ext) (raw : Bytes) (time : Nat) (qe : SgxQuotingEnclave) (f : Fmspc)
    (t : TcbVersionStatus) (r : SgxVerifiedReport) (h : verifyDcapQuote x raw time qe = .ok (f, t, r)) :
    raw.length = 1012 + 2 + leNat (sub raw 1012 2) + 2 + 4 + leNat (sub raw (1014 + leNat (sub raw 1012 2) + 2) 4) ∧
    leNat (sub raw (1014 + leNat (sub raw 1012 2) + 2) 4) ≤ 65000 := by
  have h := verifyDcapQuote_ok.mp h
  have h1 := h.length
  have h2 := h.certBound
  unfold certSize authSize at *
  omega

example : ∃ f t r, verifyDcapQuote okExt (quote 0 alice.val) 5000 demoQe = .ok (f, t, r) := demoQuote_accepted

/-- C15: appending bytes to an accepted quote, or removing bytes at its end, makes it rejected. -/
theorem C15_no_padding (x : Ext) (raw extra : Bytes) (time time' : Nat) (qe qe' : SgxQuotingEnclave)
    (f f' : Fmspc) (t t' : TcbVersionStatus) (r r' : SgxVerifiedReport)
    (h : verifyDcapQuote x raw time qe = .ok (f, t, r))
    (h' : verifyDcapQuote x (raw ++ extra) time' qe' = .ok (f', t', r')) : extra = [] := by
  have h := verifyDcapQuote_ok.mp h
  have h' := verifyDcapQuote_ok.mp h'
  have h1 := h.length
  have h2 := h'.length
  have hs : ∀ off n, off + n ≤ raw.length → sub (raw ++ extra) off n = sub raw off n := by
    intro off n hl
    unfold sub
    rw [List.drop_append_of_le_length (by omega), List.take_append_of_le_length (by simp; omega)]
  have ha : authSize (raw ++ extra) = authSize raw := by
    unfold authSize; rw [hs _ _ (by omega)]
  have hc : certSize (raw ++ extra) = certSize raw := by
    unfold certSize; rw [ha, hs _ _ (by omega)]
  rw [ha, hc, ← h1, List.length_append] at h2
  exact List.length_eq_zero_iff.mp (by omega)

example : (∃ f t r, verifyDcapQuote okExt (quote 0 alice.val) 5000 demoQe = .ok (f, t, r)) ∧
    (verifyDcapQuote okExt (quote 0 alice.val ++ [0]) 5000 demoQe).isOk = false :=
  ⟨demoQuote_accepted, by decide +kernel⟩

/-! ### C16 Attestation verification never panics -/

/-- C16: no input makes the two attestation verifiers panic. -/
theorem C16_no_panic (x : Ext) (raw : Bytes) (time : Nat) (qe : SgxQuotingEnclave) :
    verifyDcapQuote x raw time qe ≠ .error .panic ∧ verifyIasReport x raw ≠ .error .panic :=
  ⟨verifyDcapQuote_ne_panic x raw time qe, verifyIasReport_ne_panic x raw⟩

example : verifyDcapQuote ext [] 0 .default = .error .dcapQuoteDecodingError := rfl

/-- C16, as seen from the chain: registering an enclave never panics. -/
theorem C16_register_no_panic (c : Cfg) (s : Chain) (o : Origin) (proof : Bytes) (url : Option Bytes)
    (m : SgxAttestationMethod) : exec c s (.ext o (.registerSgxEnclave proof url m)) ≠ .error .panic := by
  intro h
  have hs : ∀ e : SgxEnclave, e.instanceSigner ≠ none := by
    intro e
    have hd := e.reportData.property
    unfold SgxEnclave.instanceSigner AnySigner.from64 opaqueTryFrom
    split <;> simp_all
  have ha : ∀ a, Teerex.attest c s a proof m ≠ .error .panic := by
    intro a h
    cases m with
    | ias =>
      simp only [Teerex.attest, bind_eq_error, mapErr_eq_error, mapErr_eq_ok, Teerex.sgxErr_panic, exists_eq_right,
        verifyIasReport_ne_panic, false_or, ensure_eq_error, reduceCtorEq, and_false, exists_false, or_false] at h
      obtain ⟨r, _, h⟩ := h
      unfold Teerex.ensureTimestampWithin24Hours at h
      split at h
      · simp at h
      · split at h <;> simp at h
    | dcap p =>
      simp only [Teerex.attest, bind_eq_error, mapErr_eq_error, mapErr_eq_ok, Teerex.sgxErr_panic, exists_eq_right,
        verifyDcapQuote_ne_panic, false_or, ensure_eq_error, okOr_eq_error, reduceCtorEq, and_false, exists_false,
        or_false, Prod.exists] at h
    | skip p =>
      have hw : ∀ e : SgxEnclave, e.withPubkey a.val ≠ none := by
        intro e
        have := a.property
        simp [SgxEnclave.withPubkey, this]
      simp only [Teerex.attest, bind_eq_error, false_or, ensure_eq_error, okOr_eq_error, reduceCtorEq, and_false,
        exists_false, or_false, hw, false_and] at h
  simp only [exec, dispatch, Teerex.registerSgxEnclave, Teerex.addEnclave, bind_eq_error, ensure_eq_error,
    reduceCtorEq, and_false, false_or, exists_false, or_false, ha] at h
  obtain (h | ⟨_, _, _, _, _, _, _, _, _, _, h⟩) := h
  · cases o <;> simp [ensureSigned] at h
  · split at h <;> simp [bind_eq_error, hs] at h

example : verifyDcapQuote ext [] 0 .default = .error .dcapQuoteDecodingError := rfl

/-! ### C17 IAS registrations are fresh and cannot be replayed once stale -/

/-- C17: an IAS registration succeeds only if the report's timestamp is not in the future and less than one day
old. -/
theorem C17_ias_fresh (c : Cfg) (s s' : Chain) (o : Origin) (proof : Bytes) (url : Option Bytes)
    (h : exec c s (.ext o (.registerSgxEnclave proof url .ias)) = .ok s') :
    ∃ r, verifyIasReport c.ext proof = .ok r ∧ r.timestamp ≤ s.now ∧ s.now < r.timestamp + c.momentsPerDay := by
  obtain ⟨a, e, rfl, h1, h2, h3, h4, h5, _⟩ := register_iff.mp h
  simp only [Attested, h3] at h5
  obtain ⟨r, h6, h7, h8, h9, h10⟩ := h5
  exact ⟨r, verifyIasReport_ok.mpr h6, h9, h10⟩

example : (exec okCfg start (.ext (.signed alice) (.registerSgxEnclave iasProof none .ias))).isOk = true := by decide +kernel

/-- C17: if the renewal period is at least a day, then once an enclave registered with an IAS report was removed,
nobody can ever register the same report again. -/
theorem C17_no_replay (c : Cfg) (hday : c.momentsPerDay ≤ c.maxRenewal) (s0 s1 s2 : Chain) (a b : AccountId)
    (proof : Bytes) (url : Option Bytes) (ops1 : List Op)
    (hreg : exec c s0 (.ext (.signed a) (.registerSgxEnclave proof url .ias)) = .ok s1)
    (hkeep : (run c s1 ops1).tx.sovereign a = s1.tx.sovereign a)
    (hun : exec c (run c s1 ops1) (.ext (.signed b) (.unregisterSovereignEnclave a)) = .ok s2)
    (ops2 : List Op) (o : Origin) (url' : Option Bytes) (s3 : Chain) :
    exec c (run c s2 ops2) (.ext o (.registerSgxEnclave proof url' .ias)) ≠ .ok s3 := by
  intro h3
  obtain ⟨r, hr, _, hnow⟩ := C17_ias_fresh c _ _ _ _ _ h3
  obtain ⟨a', e, ha', _, _, hm, _, hatt, _, h5⟩ := register_iff.mp hreg
  simp only [Origin.signed.injEq] at ha'
  subst ha'
  have hpf : e.proxied = false := by simp [SgxEnclave.proxied, hm]
  simp only [Attested, hm] at hatt
  obtain ⟨r', hr', ⟨_, _, _, hts, _⟩, _⟩ := hatt
  have hrr : r = r' := by
    have := verifyIasReport_ok.mpr hr'
    rw [hr] at this
    simpa using this
  subst hrr
  have hs1 : s1.tx.sovereign a = some e := by
    rcases h5 with ⟨_, _, rfl⟩ | ⟨h5, _⟩
    · simp
    · rw [hpf] at h5; simp at h5
  obtain ⟨_, e', _, he', hstale, hs2⟩ := Teerex.unregisterSovereignEnclave_ok.mp hun
  rw [hkeep, hs1] at he'
  simp only [Option.some.injEq] at he'
  subst he'
  have hle := run_now_le c s2 ops2
  have hn : s2.now = (run c s1 ops1).now := by rw [hs2]
  omega

/-- The history of the example: registration, two days pass, removal by Bob. -/
def iasHistory : List Op :=
  [.ext (.signed alice) (.registerSgxEnclave iasProof none .ias), .newBlock 172800000,
   .ext (.signed bob) (.unregisterSovereignEnclave alice)]

example : okCfg.momentsPerDay ≤ okCfg.maxRenewal ∧ (accepted okCfg start iasHistory).map (·.2) = iasHistory ∧
    (accepted okCfg start (iasHistory ++ [.ext (.signed alice) (.registerSgxEnclave iasProof none .ias)])).map
      (·.2) = iasHistory := by
  decide +kernel

/-! ### C18 Only stale enclaves can be unregistered -/

/-- C18: unregistering succeeds, for every signed origin, exactly if the entry exists and its timestamp is older
than now minus the renewal period; it then removes exactly that entry. -/
theorem C18_unregister_iff (c : Cfg) (s : Chain) (b a : AccountId) :
    ((∃ s', exec c s (.ext (.signed b) (.unregisterSovereignEnclave a)) = .ok s') ↔
      ∃ e, s.tx.sovereign a = some e ∧ e.timestamp + c.maxRenewal < s.now) ∧
    (∀ s', exec c s (.ext (.signed b) (.unregisterSovereignEnclave a)) = .ok s' →
      s'.tx.sovereign a = none ∧ (∀ a', a' ≠ a → s'.tx.sovereign a' = s.tx.sovereign a') ∧
      s'.tx.proxied = s.tx.proxied) := by
  refine ⟨⟨?_, ?_⟩, ?_⟩
  · rintro ⟨s', h⟩
    obtain ⟨_, e, _, h1, h2, _⟩ := Teerex.unregisterSovereignEnclave_ok.mp h
    exact ⟨e, h1, by omega⟩
  · rintro ⟨e, h1, h2⟩
    exact ⟨_, Teerex.unregisterSovereignEnclave_ok.mpr ⟨b, e, rfl, h1, by omega, rfl⟩⟩
  · intro s' h
    obtain ⟨_, e, _, h1, h2, rfl⟩ := Teerex.unregisterSovereignEnclave_ok.mp h
    exact ⟨by simp, fun a' h => by simp [h], rfl⟩

/-- Bob removes Alice's enclave two days later. -/
example : (exec okCfg (run okCfg start (iasHistory.take 2)) (.ext (.signed bob) (.unregisterSovereignEnclave alice))).isOk = true ∧
    (exec okCfg (run okCfg start (iasHistory.take 1)) (.ext (.signed bob) (.unregisterSovereignEnclave alice))).isOk = false := by
  decide +kernel

/-- C18 for the proxied registry. -/
theorem C18_unregister_proxied_iff (c : Cfg) (s : Chain) (b : AccountId) (p : EnclaveInstanceAddress) :
    ((∃ s', exec c s (.ext (.signed b) (.unregisterProxiedEnclave p)) = .ok s') ↔
      ∃ e, s.tx.proxied p = some e ∧ e.timestamp + c.maxRenewal < s.now) ∧
    (∀ s', exec c s (.ext (.signed b) (.unregisterProxiedEnclave p)) = .ok s' →
      s'.tx.proxied p = none ∧ (∀ p', p' ≠ p → s'.tx.proxied p' = s.tx.proxied p') ∧
      s'.tx.sovereign = s.tx.sovereign) := by
  refine ⟨⟨?_, ?_⟩, ?_⟩
  · rintro ⟨s', h⟩
    obtain ⟨_, e, _, h1, h2, _⟩ := Teerex.unregisterProxiedEnclave_ok.mp h
    exact ⟨e, h1, by omega⟩
  · rintro ⟨e, h1, h2⟩
    exact ⟨_, Teerex.unregisterProxiedEnclave_ok.mpr ⟨b, e, rfl, h1, by omega, rfl⟩⟩
  · intro s' h
    obtain ⟨_, e, _, h1, h2, rfl⟩ := Teerex.unregisterProxiedEnclave_ok.mp h
    exact ⟨by simp, fun a' h => by simp [h], rfl⟩

example : (exec okCfg (run okCfg start (dcapHistory ++ [.newBlock 172800001]))
      (.ext (.signed carol) (.unregisterProxiedEnclave proxiedAddress))).isOk = true ∧
    (exec okCfg (run okCfg start dcapHistory) (.ext (.signed carol) (.unregisterProxiedEnclave proxiedAddress))).isOk = false := by
  decide +kernel

/-- C18: an enclave that has disappeared from a registry during a history was stale at some time in it and was
removed then by an unregister call; nothing else removes enclaves. -/
theorem C18_only_unregister_removes (c : Cfg) (s0 : Chain) (ops : List Op) :
    (∀ a, s0.tx.sovereign a ≠ none → (run c s0 ops).tx.sovereign a = none →
      ∃ s b e, (s, .ext (.signed b) (.unregisterSovereignEnclave a)) ∈ accepted c s0 ops ∧
        s.tx.sovereign a = some e ∧ e.timestamp + c.maxRenewal < s.now) ∧
    (∀ p, s0.tx.proxied p ≠ none → (run c s0 ops).tx.proxied p = none →
      ∃ s b e, (s, .ext (.signed b) (.unregisterProxiedEnclave p)) ∈ accepted c s0 ops ∧
        s.tx.proxied p = some e ∧ e.timestamp + c.maxRenewal < s.now) := by
  constructor
  · intro a h0
    refine history_induction (c := c) (s0 := s0) (P := fun s acc => s.tx.sovereign a = none →
      ∃ s b e, (s, .ext (.signed b) (.unregisterSovereignEnclave a)) ∈ acc ∧
        s.tx.sovereign a = some e ∧ e.timestamp + c.maxRenewal < s.now) ?_ ?_ ops
    · intro h; exact absurd h h0
    · intro s s' op acc ih hx hn
      rcases sovereign_effect hx a with h | ⟨_, _, _, _, _, _, _, _, _, _, _, _, _, h⟩ | ⟨b, e, rfl, h1, h2, _⟩
      · obtain ⟨s1, b, e, h1, h2⟩ := ih (by rw [← h]; exact hn)
        exact ⟨s1, b, e, by simp [h1], h2⟩
      · rw [h] at hn; simp at hn
      · exact ⟨s, b, e, by simp, h1, h2⟩
  · intro p h0
    refine history_induction (c := c) (s0 := s0) (P := fun s acc => s.tx.proxied p = none →
      ∃ s b e, (s, .ext (.signed b) (.unregisterProxiedEnclave p)) ∈ acc ∧
        s.tx.proxied p = some e ∧ e.timestamp + c.maxRenewal < s.now) ?_ ?_ ops
    · intro h; exact absurd h h0
    · intro s s' op acc ih hx hn
      rcases proxied_effect hx p with h | ⟨_, _, _, _, _, _, _, _, _, _, _, _, _, _, h⟩ | ⟨b, e, rfl, h1, h2, _⟩
      · obtain ⟨s1, b, e, h1, h2⟩ := ih (by rw [← h]; exact hn)
        exact ⟨s1, b, e, by simp [h1], h2⟩
      · rw [h] at hn; simp at hn
      · exact ⟨s, b, e, by simp, h1, h2⟩

example : (run okCfg start (iasHistory.take 1)).tx.sovereign alice ≠ none ∧
    (run okCfg start iasHistory).tx.sovereign alice = none ∧
    -- too early
    (accepted okCfg start [.ext (.signed alice) (.registerSgxEnclave iasProof none .ias), .newBlock 172799000,
      .ext (.signed bob) (.unregisterSovereignEnclave alice)]).length = 2 := by
  decide +kernel

/-! ### C19 Debug enclaves are kept out unless allowed -/

/-- C19: while debug mode was never allowed, no debug enclave is in any registry. The hypotheses are met by the example
below. -/
theorem C19_no_debug (c : Cfg) (s0 : Chain) (ops : List Op) (h0 : NoEnclaves s0)
    (hd : s0.tx.allowDebug = false) (hops : ∀ op ∈ ops, ∀ sk, op ≠ .ext .root (.setSecurityFlags sk true)) :
    (∀ a e, (run c s0 ops).tx.sovereign a = some e → e.buildMode = .production) ∧
    (∀ p e, (run c s0 ops).tx.proxied p = some e → e.buildMode = .production) := by
  have := run_invariant' (c := c) (Q := fun op => ∀ sk, op ≠ .ext .root (.setSecurityFlags sk true))
    (P := fun s => s.tx.allowDebug = false ∧ (∀ a e, s.tx.sovereign a = some e → e.buildMode = .production) ∧
      (∀ p e, s.tx.proxied p = some e → e.buildMode = .production)) ?_ (s := s0) ?_ ops hops
  · exact this.2
  · rintro s s' op hq ⟨h1, h2, h3⟩ hx
    have hb : ∀ b : SgxBuildMode, b ≠ .debug → b = .production := by intro b; cases b <;> simp
    refine ⟨?_, ?_, ?_⟩
    · rcases flags_effect hx with ⟨_, h⟩ | h
      · rw [h, h1]
      · cases hs : s'.tx.allowDebug
        · rfl
        · rw [hs] at h; exact absurd h (hq _)
    · intro a e he
      rcases sovereign_effect hx a with h | ⟨_, _, _, _, _, _, _, _, _, _, h4, _, _, h⟩ | ⟨_, _, _, _, _, h⟩
      · rw [h] at he; exact h2 a e he
      · rw [h] at he
        simp only [Option.some.injEq] at he
        subst he
        rw [h1] at h4
        exact hb _ (by simpa using h4)
      · rw [h] at he; simp at he
    · intro p e he
      rcases proxied_effect hx p with h | ⟨_, _, _, _, _, _, _, _, _, _, h4, _, _, _, h⟩ | ⟨_, _, _, _, _, h⟩
      · rw [h] at he; exact h3 p e he
      · rw [h] at he
        simp only [Option.some.injEq] at he
        subst he
        rw [h1] at h4
        exact hb _ (by simpa using h4)
      · rw [h] at he; simp at he
  · exact ⟨hd, fun a e h => by rw [h0.1] at h; simp at h, fun p e h => by rw [h0.2] at h; simp at h⟩

/-- C19: the reported build mode is Debug exactly if bit 1 of the attribute flags in the attested report is set:
for DCAP bytes 96-103 of the quote, for IAS the same bytes of the signed quote body. -/
theorem C19_debug_bit (x : Ext) (raw : Bytes) :
    (∀ time qe f t r, verifyDcapQuote x raw time qe = .ok (f, t, r) →
      (r.buildMode = .debug ↔ (leNat (sub raw 96 8)).testBit 1 = true)) ∧
    (∀ r, verifyIasReport x raw = .ok r → ∃ report sig cert js body quote, NetscapeIn x raw report sig cert ∧
      x.jsonReport report = some js ∧ js.quoteBody = some body ∧ x.base64 body.toUTF8.data.toList = some quote ∧
      (r.buildMode = .debug ↔ (leNat (sub quote 96 8)).testBit 1 = true)) := by
  constructor
  · intro time qe f t r h
    exact (verifyDcapQuote_ok.mp h).buildMode
  · intro r h
    obtain ⟨report, sig, cert, js, ts, secs, st, body, quote, h1, _, _, _, h2, _, _, _, _, _, h3, h4, _, _, _, _, h5⟩ :=
      (verifyIasReport_ok.mp h).signed
    exact ⟨report, sig, cert, js, body, quote, h1, h2, h3, h4, h5⟩

/-- A debug quote is refused, and accepted once root allows debug mode. -/
example : NoEnclaves start ∧ start.tx.allowDebug = false ∧
    (∀ op ∈ dcapHistory, ∀ sk, op ≠ .ext .root (.setSecurityFlags sk true)) ∧
    ((run okCfg start (dcapHistory.take 2 ++
      [.ext (.signed alice) (.registerSgxEnclave (quote 2 alice.val) none (.dcap false))])).tx.sovereign alice) = none ∧
    ((run okCfg start (dcapHistory.take 2 ++ [.ext .root (.setSecurityFlags false true),
      .ext (.signed alice) (.registerSgxEnclave (quote 2 alice.val) none (.dcap false))])).tx.sovereign alice).map
      (·.buildMode) = some .debug := by
  refine ⟨⟨fun _ => rfl, fun _ => rfl⟩, rfl, ?_, by decide +kernel, by decide +kernel⟩
  intro op h sk
  simp only [dcapHistory, regTcb, regQe, List.mem_cons, List.not_mem_nil, or_false] at h
  rcases h with rfl | rfl | rfl | rfl <;> simp

/-! ### C20 Skipping attestation and security flags are root controlled -/

/-- C20: an unattested registration succeeds only while the flag is set. -/
theorem C20_skip_needs_flag (c : Cfg) (s s' : Chain) (o : Origin) (proof : Bytes) (url : Option Bytes) (p : Bool)
    (h : exec c s (.ext o (.registerSgxEnclave proof url (.skip p))) = .ok s') : s.tx.allowSkip = true := by
  obtain ⟨a, e, rfl, h1, h2, h3, h4, h5, _⟩ := register_iff.mp h
  simp only [Attested, h3] at h5
  exact h5.1

example : (exec okCfg start (.ext (.signed alice) (.registerSgxEnclave [] none (.skip false)))).isOk = true ∧
    (exec okCfg { start with tx := { start.tx with allowSkip := false } }
      (.ext (.signed alice) (.registerSgxEnclave [] none (.skip false)))).isOk = false := by decide +kernel

/-- C20: the two flags change only by a root call, to exactly the values given in that call; and the root call
always succeeds. -/
theorem C20_flags_root_only (c : Cfg) (s : Chain) :
    (∀ s' op, exec c s op = .ok s' →
      (s'.tx.allowSkip ≠ s.tx.allowSkip ∨ s'.tx.allowDebug ≠ s.tx.allowDebug) →
      op = .ext .root (.setSecurityFlags s'.tx.allowSkip s'.tx.allowDebug)) ∧
    (∀ sk db, ∃ s', exec c s (.ext .root (.setSecurityFlags sk db)) = .ok s' ∧ s'.tx.allowSkip = sk ∧
      s'.tx.allowDebug = db ∧ s'.tx.sovereign = s.tx.sovereign ∧ s'.tx.proxied = s.tx.proxied) := by
  constructor
  · intro s' op hx hne
    rcases flags_effect hx with ⟨h1, h2⟩ | h
    · simp [h1, h2] at hne
    · exact h
  · intro sk db
    exact ⟨_, Teerex.setSecurityFlags_ok.mpr ⟨rfl, rfl⟩, rfl, rfl, rfl, rfl⟩

example : (exec okCfg start (.ext .root (.setSecurityFlags false true))).isOk = true ∧
    (step okCfg start (.ext .root (.setSecurityFlags false true))).tx.allowDebug ≠ start.tx.allowDebug ∧
    (exec okCfg start (.ext (.signed alice) (.setSecurityFlags false true))).isOk = false := by decide +kernel

/-- C20: while skipping was never allowed, every registered enclave was accepted with a verified IAS report or
DCAP quote. -/
theorem C20_all_attested (c : Cfg) (s0 : Chain) (ops : List Op) (h0 : NoEnclaves s0)
    (hd : s0.tx.allowSkip = false) (hops : ∀ op ∈ ops, ∀ db, op ≠ .ext .root (.setSecurityFlags true db)) :
    (∀ a e, (run c s0 ops).tx.sovereign a = some e → ∃ s proof,
      (s, .ext (.signed a) (.registerSgxEnclave proof e.url e.method)) ∈ accepted c s0 ops ∧
      ((e.method = .ias ∧ ∃ r, AuthenticIas c.ext proof r ∧ FromReport e r) ∨
       (e.method = .dcap false ∧ ∃ f t r, AuthenticQuote c.ext proof s.now s.tx.qe f t r ∧ FromReport e r))) ∧
    (∀ p e, (run c s0 ops).tx.proxied p = some e → ∃ s proof,
      (s, .ext (.signed p.registrar) (.registerSgxEnclave proof e.url e.method)) ∈ accepted c s0 ops ∧
      e.method = .dcap true ∧ ∃ f t r, AuthenticQuote c.ext proof s.now s.tx.qe f t r ∧ FromReport e r) := by
  -- the flag is off in every state of the history
  have hflag : ∀ ops s0, s0.tx.allowSkip = false → (∀ op ∈ ops, ∀ db, op ≠ .ext .root (.setSecurityFlags true db)) →
      ∀ p ∈ accepted c s0 ops, p.1.tx.allowSkip = false := by
    intro ops
    induction ops with
    | nil => intro s0 _ _ p hp; simp [accepted] at hp
    | cons op ops ih =>
      intro s0 h hq p hp
      cases hx : exec c s0 op with
      | ok s' =>
        rw [accepted_cons_ok hx] at hp
        rcases List.mem_cons.mp hp with rfl | hp
        · exact h
        · refine ih s' ?_ (fun o ho => hq o (by simp [ho])) p hp
          rcases flags_effect hx with ⟨h1, _⟩ | h1
          · rw [h1, h]
          · cases hs : s'.tx.allowSkip
            · rfl
            · rw [hs] at h1; exact absurd h1 (hq op (by simp) _)
      | error e =>
        rw [accepted_cons_error hx] at hp
        exact ih s0 h (fun o ho => hq o (by simp [ho])) p hp
  have hacc := hflag ops s0 hd hops
  constructor
  · intro a e he
    obtain ⟨_, hm, s, proof, hmem, hatt⟩ := C12_sovereign_own_key c s0 ops h0 a e he
    refine ⟨s, proof, hmem, ?_⟩
    rcases hm with hm | hm | hm
    · simp only [Attested, hm] at hatt
      obtain ⟨r, h1, h2, _⟩ := hatt
      exact .inl ⟨hm, r, h1, h2⟩
    · simp only [Attested, hm] at hatt
      obtain ⟨f, t, r, _, h1, h2, _⟩ := hatt
      exact .inr ⟨hm, f, t, r, h1, h2⟩
    · simp only [Attested, hm] at hatt
      have := hacc _ hmem
      simp only at this
      rw [this] at hatt
      simp at hatt
  · intro p e he
    obtain ⟨_, _, hm, s, proof, hmem, hatt⟩ := C13_proxied_address c s0 ops h0 p e he
    refine ⟨s, proof, hmem, ?_⟩
    rcases hm with hm | hm
    · simp only [Attested, hm] at hatt
      obtain ⟨f, t, r, _, h1, h2, _⟩ := hatt
      exact ⟨hm, f, t, r, h1, h2⟩
    · simp only [Attested, hm] at hatt
      have := hacc _ hmem
      simp only at this
      rw [this] at hatt
      simp at hatt

/-- A chain on which skipping is not allowed. -/
def strictStart : Chain := { start with tx := { start.tx with allowSkip := false } }

example : NoEnclaves strictStart ∧ strictStart.tx.allowSkip = false ∧
    (accepted okCfg strictStart dcapHistory).length = 4 ∧
    (accepted okCfg strictStart [.ext (.signed alice) (.registerSgxEnclave [] none (.skip false))]).length = 0 ∧
    (accepted okCfg strictStart [.ext .root (.setSecurityFlags true false),
      .ext (.signed alice) (.registerSgxEnclave [] none (.skip false))]).length = 2 :=
  ⟨⟨fun _ => rfl, fun _ => rfl⟩, rfl, by decide +kernel, by decide +kernel, by decide +kernel⟩

/-! ### C21 TCB level evaluation picks the first dominated level -/

/-- C21: the evaluation returns a status exactly if it is that of the first dominated level. -/
theorem C21_first_dominated (info : SgxTcbInfoOnChain) (p : TcbVersionStatus) (st : SgxStatus) :
    info.verifyExaminee p = some st ↔ FirstDominated info p st := firstDominated_iff

example : (((tcbInfo 3).toChain.getD (demoFmspc, ⟨0, 0, []⟩)).2.verifyExaminee ⟨Arr.fill 16 255, 60000, .unknown⟩).isSome := by
  decide +kernel

/-- C21: it rejects exactly if no level is dominated. -/
theorem C21_rejects_iff (info : SgxTcbInfoOnChain) (p : TcbVersionStatus) :
    info.verifyExaminee p = none ↔ ∀ l ∈ info.tcbLevels, ¬ Dominated l p := tcbLoop_none

example :
    let info : SgxTcbInfoOnChain := ((tcbInfo 3).toChain.getD (demoFmspc, ⟨0, 0, []⟩)).2
    info.verifyExaminee ⟨Arr.fill 16 10, 0, .unknown⟩ = none ∧ info.tcbLevels.length ≠ 0 := by decide +kernel

/-- C21: raising any SVN of a platform never turns acceptance into rejection. -/
theorem C21_monotone (info : SgxTcbInfoOnChain) (p p' : TcbVersionStatus) (h : Dominated p p')
    (ha : info.verifyExaminee p ≠ none) : info.verifyExaminee p' ≠ none := by
  intro h'
  apply ha
  rw [C21_rejects_iff] at *
  intro l hl hd
  refine h' l hl ⟨fun i hi => ?_, Nat.le_trans hd.2 h.2⟩
  exact UInt8.le_trans (hd.1 i hi) (h.1 i hi)

example :
    let info : SgxTcbInfoOnChain := ((tcbInfo 3).toChain.getD (demoFmspc, ⟨0, 0, []⟩)).2
    Dominated ⟨Arr.fill 16 10, 7, .unknown⟩ ⟨Arr.fill 16 12, 8, .unknown⟩ ∧
    info.verifyExaminee ⟨Arr.fill 16 10, 7, .unknown⟩ ≠ none := by decide +kernel

/-- C21: a DCAP registration fails when the stored TCB info of the platform has no dominated level, or when
there is none for the platform; otherwise the entry's status is that of the first dominated level. -/
theorem C21_registration (c : Cfg) (s s' : Chain) (o : Origin) (proof : Bytes) (url : Option Bytes) (p : Bool)
    (f : Fmspc) (t : TcbVersionStatus) (r : SgxVerifiedReport)
    (hq : verifyDcapQuote c.ext proof s.now s.tx.qe = .ok (f, t, r))
    (h : exec c s (.ext o (.registerSgxEnclave proof url (.dcap p))) = .ok s') :
    ∃ a info st, o = .signed a ∧ s.tx.tcb f = some info ∧ FirstDominated info t st ∧
      s'.tx.events = .addedSgxEnclave a url (some st) (.dcap p) :: s.tx.events ∧
      (p = false → ∃ e, s'.tx.sovereign a = some e ∧ e.status = st) ∧
      (p = true → ∃ e, s'.tx.proxied ⟨r.mrEnclave, a, .opaque (r.reportData.val ++ [0, 0])⟩ = some e ∧
        e.status = st) := by
  obtain ⟨a, e, rfl, h1, h2, h3, h4, h5, _, h6⟩ := register_iff.mp h
  simp only [Attested, h3] at h5
  obtain ⟨f', t', r', info, h7, ⟨e1, e2, _⟩, h8, h9⟩ := h5
  have := verifyDcapQuote_ok.mpr h7
  rw [hq] at this
  simp only [Except.ok.injEq, Prod.mk.injEq] at this
  obtain ⟨rfl, rfl, rfl⟩ := this
  refine ⟨a, info, e.status, rfl, h8, h9, ?_, ?_, ?_⟩
  · rcases h6 with ⟨_, _, rfl⟩ | ⟨_, rfl⟩ <;> rfl
  · intro hp
    rcases h6 with ⟨_, _, rfl⟩ | ⟨h6, _⟩
    · exact ⟨e, by simp, rfl⟩
    · simp [SgxEnclave.proxied, h3, hp] at h6
  · intro hp
    rcases h6 with ⟨h6, _⟩ | ⟨_, rfl⟩
    · simp [SgxEnclave.proxied, h3, hp] at h6
    · exact ⟨e, by simp [e1, e2], rfl⟩

example : (verifyDcapQuote okCfg.ext (quote 0 alice.val) (run okCfg start [regTcb 3, regQe 3]).now
      (run okCfg start [regTcb 3, regQe 3]).tx.qe).isOk = true ∧
    (exec okCfg (run okCfg start [regTcb 3, regQe 3])
      (.ext (.signed alice) (.registerSgxEnclave (quote 0 alice.val) none (.dcap false)))).isOk = true := by decide +kernel

/-- The second of three levels applies to the demo platform; a platform with a lower component in the last
position falls to the third level, and one below everything is rejected. -/
example :
    let info : SgxTcbInfoOnChain := ((tcbInfo 3).toChain.getD (demoFmspc, ⟨0, 0, []⟩)).2
    info.verifyExaminee ⟨Arr.fill 16 10, 7, .unknown⟩ = some .groupOutOfDate ∧
    info.verifyExaminee ⟨⟨bytes 15 10 ++ [9], rfl⟩, 7, .unknown⟩ = some .groupRevoked ∧
    info.verifyExaminee ⟨Arr.fill 16 10, 0, .unknown⟩ = none ∧
    Dominated ⟨Arr.fill 16 10, 7, .unknown⟩ ⟨Arr.fill 16 12, 7, .unknown⟩ := by
  decide +kernel

/-! ### C22 Stored collateral was signed by Intel and valid when registered -/

/-- C22: every stored TCB info, and the quoting enclave identity unless it is still the initial one, was
registered by an accepted call whose data was signed by a leaf certificate chaining to the Intel root, had the
right id and version, and was valid at that time. -/
theorem C22_collateral_signed (c : Cfg) (s0 : Chain) (ops : List Op) (h0 : ∀ f, s0.tx.tcb f = none) :
    (∀ f info, (run c s0 ops).tx.tcb f = some info → ∃ s b d g ch,
      (s, .ext (.signed b) (.registerTcbInfo d g ch)) ∈ accepted c s0 ops ∧ SignedTcbInfo c s.now d g ch f info) ∧
    ((run c s0 ops).tx.qe = s0.tx.qe ∨ ∃ s b d g ch,
      (s, .ext (.signed b) (.registerQuotingEnclave d g ch)) ∈ accepted c s0 ops ∧
      SignedIdentity c s.now d g ch (run c s0 ops).tx.qe) := by
  refine history_induction (c := c) (s0 := s0) (P := fun st acc =>
    (∀ f info, st.tx.tcb f = some info → ∃ s b d g ch,
      (s, .ext (.signed b) (.registerTcbInfo d g ch)) ∈ acc ∧ SignedTcbInfo c s.now d g ch f info) ∧
    (st.tx.qe = s0.tx.qe ∨ ∃ s b d g ch,
      (s, .ext (.signed b) (.registerQuotingEnclave d g ch)) ∈ acc ∧
      SignedIdentity c s.now d g ch st.tx.qe)) ?_ ?_ ops
  · exact ⟨fun f info h => by rw [h0] at h; simp at h, .inl rfl⟩
  · rintro s s' op acc ⟨ih1, ih2⟩ hx
    obtain ⟨hq, ht⟩ := collateral_effect hx
    constructor
    · intro f info hf
      rcases ht f with h | ⟨b, d, g, ch, i, rfl, h1, h2⟩
      · rw [h] at hf
        obtain ⟨s1, b, d, g, ch, h1, h2⟩ := ih1 f info hf
        exact ⟨s1, b, d, g, ch, by simp [h1], h2⟩
      · rw [h1] at hf
        simp only [Option.some.injEq] at hf
        subst hf
        exact ⟨s, b, d, g, ch, by simp, h2⟩
    · rcases hq with h | ⟨b, d, g, ch, rfl, h2⟩
      · rw [h]
        rcases ih2 with h | ⟨s1, b, d, g, ch, h1, h2⟩
        · exact .inl h
        · exact .inr ⟨s1, b, d, g, ch, by simp [h1], h2⟩
      · exact .inr ⟨s, b, d, g, ch, by simp, h2⟩

example : (∀ f, start.tx.tcb f = none) ∧ (run okCfg start [regTcb 3, regQe 3]).tx.tcb demoFmspc ≠ none :=
  ⟨fun _ => rfl, by decide +kernel⟩

/-- C22: registering TCB info succeeds exactly for a signed origin, before the year 292 million, with signed
and currently valid data. -/
theorem C22_register_tcb_iff (c : Cfg) (s : Chain) (b : AccountId) (d g ch : Bytes) :
    (∃ s', exec c s (.ext (.signed b) (.registerTcbInfo d g ch)) = .ok s') ↔
      s.now < 2 ^ 63 ∧ ∃ f info, SignedTcbInfo c s.now d g ch f info := by
  constructor
  · rintro ⟨s', h⟩
    obtain ⟨_, f, i, _, h, _⟩ := Teerex.registerTcbInfo_ok.mp h
    obtain ⟨h1, h2⟩ := signedTcbInfo_iff.mp h
    exact ⟨h1, f, i, h2⟩
  · rintro ⟨h1, f, i, h2⟩
    exact ⟨_, Teerex.registerTcbInfo_ok.mpr ⟨b, f, i, rfl, signedTcbInfo_iff.mpr ⟨h1, h2⟩, rfl⟩⟩

example : (exec okCfg start (regTcb 3)).isOk = true ∧ (exec okCfg start (regTcb 5000)).isOk = false := by decide +kernel

/-- C22: the same for the identity of the quoting enclave. -/
theorem C22_register_qe_iff (c : Cfg) (s : Chain) (b : AccountId) (d g ch : Bytes) :
    (∃ s', exec c s (.ext (.signed b) (.registerQuotingEnclave d g ch)) = .ok s') ↔
      s.now < 2 ^ 63 ∧ ∃ q, SignedIdentity c s.now d g ch q := by
  constructor
  · rintro ⟨s', h⟩
    obtain ⟨_, q, _, h, _⟩ := Teerex.registerQuotingEnclave_ok.mp h
    obtain ⟨h1, h2⟩ := signedIdentity_iff.mp h
    exact ⟨h1, q, h2⟩
  · rintro ⟨h1, q, h2⟩
    exact ⟨_, Teerex.registerQuotingEnclave_ok.mpr ⟨b, q, rfl, signedIdentity_iff.mpr ⟨h1, h2⟩, rfl⟩⟩

example : (exec okCfg start (regQe 3)).isOk = true ∧ (exec okCfg start (regQe 5000)).isOk = false := by decide +kernel

/-- C22: an accepted registration of TCB info stores what was signed, under the platform it is signed for, and
changes nothing else but the event log. -/
theorem C22_register_tcb_stores (c : Cfg) (s s' : Chain) (o : Origin) (d g ch : Bytes)
    (h : exec c s (.ext o (.registerTcbInfo d g ch)) = .ok s') :
    ∃ f info, SignedTcbInfo c s.now d g ch f info ∧ s'.tx.tcb f = some info ∧
      (∀ f', f' ≠ f → s'.tx.tcb f' = s.tx.tcb f') ∧ s'.tx.qe = s.tx.qe ∧ s'.tx.sovereign = s.tx.sovereign ∧
      s'.tx.proxied = s.tx.proxied ∧ s'.tx.allowDebug = s.tx.allowDebug ∧ s'.tx.allowSkip = s.tx.allowSkip ∧
      s'.tx.events = .sgxTcbInfoRegistered f info :: s.tx.events := by
  obtain ⟨_, f, i, _, hv, rfl⟩ := Teerex.registerTcbInfo_ok.mp h
  exact ⟨f, i, (signedTcbInfo_iff.mp hv).2, by simp, fun f' hf => by simp [upd, hf], rfl, rfl, rfl, rfl, rfl, rfl⟩

example : (exec okCfg start (regTcb 3)).isOk = true := by decide +kernel

/-- C22: the same for the identity of the quoting enclave. -/
theorem C22_register_qe_stores (c : Cfg) (s s' : Chain) (o : Origin) (d g ch : Bytes)
    (h : exec c s (.ext o (.registerQuotingEnclave d g ch)) = .ok s') :
    SignedIdentity c s.now d g ch s'.tx.qe ∧ s'.tx.tcb = s.tx.tcb ∧ s'.tx.sovereign = s.tx.sovereign ∧
      s'.tx.proxied = s.tx.proxied ∧ s'.tx.allowDebug = s.tx.allowDebug ∧ s'.tx.allowSkip = s.tx.allowSkip ∧
      s'.tx.events = .sgxQuotingEnclaveRegistered s'.tx.qe :: s.tx.events := by
  obtain ⟨_, q, _, hv, rfl⟩ := Teerex.registerQuotingEnclave_ok.mp h
  exact ⟨(signedIdentity_iff.mp hv).2, rfl, rfl, rfl, rfl, rfl, rfl⟩

/-- Collateral with another issue date replaces the stored one. -/
example : ((run okCfg start [regTcb 3]).tx.tcb demoFmspc).map (·.issueDate) = some 3 ∧
    ((run okCfg start [regTcb 3, regTcb 4]).tx.tcb demoFmspc).map (·.issueDate) = some 4 ∧
    (run okCfg start [regQe 3, regQe 4]).tx.qe.issueDate = 4 := by decide +kernel

/-- Collateral issued at 3 is accepted at time 5000; collateral issued at 5000 is not. -/
example : (∀ f, start.tx.tcb f = none) ∧ (accepted okCfg start [regTcb 3, regQe 3]).length = 2 ∧
    (accepted okCfg start [regTcb 5000, regQe 5000]).length = 0 ∧
    (run okCfg start [regTcb 3, regQe 3]).tx.tcb demoFmspc ≠ none :=
  ⟨fun _ => rfl, by decide +kernel, by decide +kernel, by decide +kernel⟩

/-! ### C23 DCAP registration uses collateral that is currently valid -/

/-- The full claim. It is false for the code (see `C23_refuted`). -/
def C23_Full : Prop :=
  ∀ (c : Cfg) (s0 : Chain) (ops : List Op) (o : Origin) (proof : Bytes) (url : Option Bytes) (p : Bool)
    (f : Fmspc) (t : TcbVersionStatus) (r : SgxVerifiedReport) (info : SgxTcbInfoOnChain) (s' : Chain),
    (∀ f, s0.tx.tcb f = none) →
    verifyDcapQuote c.ext proof (run c s0 ops).now (run c s0 ops).tx.qe = .ok (f, t, r) →
    (run c s0 ops).tx.tcb f = some info →
    exec c (run c s0 ops) (.ext o (.registerSgxEnclave proof url (.dcap p))) = .ok s' →
    (run c s0 ops).now < info.nextUpdate ∧ (run c s0 ops).now < (run c s0 ops).tx.qe.nextUpdate

/-- Collateral that expires at time 6000 is still used at time 15000. -/
theorem C23_refuted : ¬ C23_Full := by
  intro h
  have h1 : (verifyDcapQuote okExt (quote 0 alice.val) (run okCfg start [regTcb 3, regQe 3, .newBlock 10000]).now
      (run okCfg start [regTcb 3, regQe 3, .newBlock 10000]).tx.qe).isOk = true := by decide +kernel
  have h2 : (exec okCfg (run okCfg start [regTcb 3, regQe 3, .newBlock 10000])
      (.ext (.signed alice) (.registerSgxEnclave (quote 0 alice.val) none (.dcap false)))).isOk = true := by
    decide +kernel
  generalize hq : verifyDcapQuote okExt (quote 0 alice.val) (run okCfg start [regTcb 3, regQe 3, .newBlock 10000]).now
      (run okCfg start [regTcb 3, regQe 3, .newBlock 10000]).tx.qe = q at h1
  generalize hs : exec okCfg (run okCfg start [regTcb 3, regQe 3, .newBlock 10000])
      (.ext (.signed alice) (.registerSgxEnclave (quote 0 alice.val) none (.dcap false))) = x at h2
  match q, x, h1, h2 with
  | .ok (f, t, r), .ok s', _, _ =>
    obtain ⟨a, info, st, _, hinfo, _⟩ := C21_registration okCfg _ s' _ _ none false f t r hq hs
    have := (h okCfg start [regTcb 3, regQe 3, .newBlock 10000] _ _ none false f t r info s' (fun _ => rfl) hq hinfo hs).2
    revert this
    decide +kernel

/-- C23, partial: the TCB info used by a DCAP registration was valid at some earlier time (when it was
registered), and so was the quoting enclave identity. Missing: the expiry date is not checked at registration. -/
theorem C23_collateral_was_valid_partial (c : Cfg) (s0 : Chain) (ops : List Op) (f : Fmspc)
    (info : SgxTcbInfoOnChain) (h0 : ∀ f, s0.tx.tcb f = none) (hf : (run c s0 ops).tx.tcb f = some info) :
    (∃ t, t ≤ (run c s0 ops).now ∧ info.issueDate < t ∧ t < info.nextUpdate) ∧
    ((run c s0 ops).tx.qe ≠ s0.tx.qe →
      ∃ t, t ≤ (run c s0 ops).now ∧ (run c s0 ops).tx.qe.issueDate < t ∧ t < (run c s0 ops).tx.qe.nextUpdate) := by
  have hnow : ∀ p ∈ accepted c s0 ops, p.1.now ≤ (run c s0 ops).now := by
    refine history_induction (c := c) (s0 := s0) (P := fun s acc => ∀ p ∈ acc, p.1.now ≤ s.now) (by simp) ?_ ops
    intro s s' op acc ih hx p hp
    have := exec_now_le hx
    rcases List.mem_append.mp hp with hp | hp
    · exact Nat.le_trans (ih p hp) this
    · simp only [List.mem_singleton] at hp; rw [hp]; exact this
  obtain ⟨h1, h2⟩ := C22_collateral_signed c s0 ops h0
  constructor
  · obtain ⟨s, b, d, g, ch, hm, _, _, _, _, p, _, _, _, _, _, _, _, _, h3, h4, _, h5, h6, _⟩ := h1 f info hf
    exact ⟨s.now, hnow _ hm, by omega, by omega⟩
  · intro hne
    rcases h2 with h2 | ⟨s, b, d, g, ch, hm, _, _, _, _, p, _, _, _, _, _, _, _, _, h3, h4, h5, h6, _⟩
    · exact absurd h2 hne
    · exact ⟨s.now, hnow _ hm, by omega, by omega⟩

example : (∀ f, start.tx.tcb f = none) ∧ (run okCfg start dcapHistory).tx.tcb demoFmspc ≠ none ∧
    (run okCfg start dcapHistory).tx.qe ≠ start.tx.qe :=
  ⟨fun _ => rfl, by decide +kernel, by decide +kernel⟩

/-! ### C24 Collateral is never rolled back -/

/-- The full claim. It is false for the code (see `C24_refuted`). -/
def C24_Full : Prop :=
  ∀ (c : Cfg) (s0 : Chain) (ops : List Op) (op : Op), (∀ f, s0.tx.tcb f = none) →
    (∀ f old new, (run c s0 ops).tx.tcb f = some old → (run c s0 (ops ++ [op])).tx.tcb f = some new →
      old.issueDate ≤ new.issueDate) ∧
    (run c s0 ops).tx.qe.issueDate ≤ (run c s0 (ops ++ [op])).tx.qe.issueDate

/-- Anybody can replace collateral issued at 4 by collateral issued at 3 while the latter is still valid. -/
theorem C24_refuted : ¬ C24_Full := by
  intro h
  have := (h okCfg start [regQe 4] (regQe 3) (fun _ => rfl)).2
  revert this
  decide +kernel

example : ((run okCfg start [regTcb 4]).tx.tcb demoFmspc).map (·.issueDate) = some 4 ∧
    ((run okCfg start [regTcb 4, regTcb 3]).tx.tcb demoFmspc).map (·.issueDate) = some 3 := by
  decide +kernel

/-- C24, partial: whatever replaces stored collateral is signed and valid at that time, and the collateral of
other platforms stays as it is. Missing: the issue date may go backwards. -/
theorem C24_replacement_valid_partial (c : Cfg) (s s' : Chain) (op : Op) (h : exec c s op = .ok s') :
    (∀ f new, s'.tx.tcb f = some new → s.tx.tcb f = some new ∨
      ((∃ b d g ch, op = .ext (.signed b) (.registerTcbInfo d g ch) ∧ SignedTcbInfo c s.now d g ch f new) ∧
        new.issueDate < s.now ∧ s.now < new.nextUpdate ∧
        (∀ f', f' ≠ f → s'.tx.tcb f' = s.tx.tcb f') ∧ s'.tx.qe = s.tx.qe)) ∧
    (s'.tx.qe = s.tx.qe ∨
      ((∃ b d g ch, op = .ext (.signed b) (.registerQuotingEnclave d g ch) ∧ SignedIdentity c s.now d g ch s'.tx.qe) ∧
        s'.tx.qe.issueDate < s.now ∧ s.now < s'.tx.qe.nextUpdate ∧ s'.tx.tcb = s.tx.tcb)) ∧
    (∀ f, s.tx.tcb f ≠ none → s'.tx.tcb f ≠ none) := by
  obtain ⟨hq, ht⟩ := collateral_effect h
  refine ⟨?_, ?_, ?_⟩
  · intro f new hf
    rcases ht f with h1 | ⟨b, d, g, ch, i, rfl, h1, hsig⟩
    · left; rw [← h1, hf]
    · have hsig' := hsig
      obtain ⟨_, _, _, _, p, _, _, _, _, _, _, _, _, h3, h4, _, h5, h6, _⟩ := hsig'
      obtain ⟨_, f1, i1, _, _, hs'⟩ := Teerex.registerTcbInfo_ok.mp h
      have heq : s'.tx.tcb = upd s.tx.tcb f1 (some i1) := by rw [hs']
      by_cases e : f = f1
      rotate_left
      · left; rw [← hf, heq, upd_ne _ _ e]
      right
      rw [hf] at h1
      simp only [Option.some.injEq] at h1
      subst h1
      refine ⟨⟨b, d, g, ch, rfl, hsig⟩, by omega, by omega, ?_, by rw [hs']⟩
      intro f' hf'
      have := congrFun heq f'
      rwa [upd_ne _ _ (by rw [← e]; exact hf')] at this
  · rcases hq with h1 | ⟨b, d, g, ch, rfl, hsig⟩
    · exact .inl h1
    · have hsig' := hsig
      obtain ⟨_, _, _, _, p, _, _, _, _, _, _, _, _, h3, h4, h5, h6, _⟩ := hsig'
      refine .inr ⟨⟨b, d, g, ch, rfl, hsig⟩, by omega, by omega, ?_⟩
      obtain ⟨_, _, _, _, rfl⟩ := Teerex.registerQuotingEnclave_ok.mp h
      rfl
  · intro f hf
    rcases ht f with h1 | ⟨b, d, g, ch, i, rfl, h1, _⟩
    · rw [h1]; exact hf
    · rw [h1]; simp

example : (exec okCfg start (regTcb 3)).isOk = true ∧ (exec okCfg start (regQe 3)).isOk = true := by
  decide +kernel

/-! ### C25 Quoting enclave identity check -/

/-- C25: a 384-byte quoting enclave report always parses, and is accepted exactly if product id, signer, masked
MISCSELECT bytes and masked attribute flag bits match the identity and its SVN is at least one of the listed
ones. -/
theorem C25_qe_check_iff (b : Bytes) (h : b.length = 384) (qe : SgxQuotingEnclave) :
    ∃ r, decodeReportBody b = some (r, []) ∧ (r.verify qe = true ↔ QeMatches b 0 qe) := by
  obtain ⟨r, hr⟩ := reportAt_exists (raw := b) (off := 0) (by omega)
  refine ⟨r, ?_, reportBody_verify hr qe⟩
  have := (decodeReportBody_drop (raw := b) (off := 0) (r := r) (b := [])).mpr
    ⟨by omega, hr, by rw [List.drop_eq_nil_of_le (by omega)]⟩
  simpa using this

example : qeReport.length = 384 ∧ ((decodeReportBody qeReport).map (·.1.verify demoQe)) = some true ∧
    ((decodeReportBody (bytes 128 0 ++ bytes 32 5 ++ bytes 96 0 ++ [1, 0] ++ [1, 0] ++ bytes 124 0)).map
      (·.1.verify demoQe)) = some false := by
  decide +kernel

/-! ### C26 Registry entries are bounded and never from the future -/

/-- C26: in every state reached from one without enclaves, worker URLs have at most 256 bytes and attestation
timestamps are not later than the current time. -/
theorem C26_entries_bounded (c : Cfg) (s0 : Chain) (ops : List Op) (h0 : NoEnclaves s0) :
    (∀ a e, (run c s0 ops).tx.sovereign a = some e →
      (∀ u, e.url = some u → u.length ≤ 256) ∧ e.timestamp ≤ (run c s0 ops).now) ∧
    (∀ p e, (run c s0 ops).tx.proxied p = some e →
      (∀ u, e.url = some u → u.length ≤ 256) ∧ e.timestamp ≤ (run c s0 ops).now) := by
  have hts : ∀ (s : Chain) a proof e, Attested c s a proof e → e.timestamp ≤ s.now := by
    intro s a proof e h
    unfold Attested at h
    split at h
    · obtain ⟨r, _, ⟨_, _, _, h1, _⟩, _, h2, _⟩ := h; rw [h1]; exact h2
    · obtain ⟨f, t, r, info, h1, ⟨_, _, _, h2, _⟩, _⟩ := h; rw [h2, h1.timestamp]; exact Nat.le_refl _
    · rw [h.2.2.2.2.2.1]; exact Nat.le_refl _
  refine run_invariant (c := c) (P := fun s =>
    (∀ a e, s.tx.sovereign a = some e → (∀ u, e.url = some u → u.length ≤ 256) ∧ e.timestamp ≤ s.now) ∧
    (∀ p e, s.tx.proxied p = some e → (∀ u, e.url = some u → u.length ≤ 256) ∧ e.timestamp ≤ s.now)) ?_ ?_ ops
  · rintro s s' op ⟨ih1, ih2⟩ hx
    have hn := exec_now_le hx
    constructor
    · intro a e he
      rcases sovereign_effect hx a with h | ⟨proof, url, m, e', _, _, h1, _, h2, h3, _, _, _, h⟩ | ⟨_, _, _, _, _, h⟩
      · rw [h] at he
        exact ⟨(ih1 a e he).1, Nat.le_trans (ih1 a e he).2 hn⟩
      · rw [h] at he
        simp only [Option.some.injEq] at he
        subst he
        exact ⟨h1 ▸ h2, Nat.le_trans (hts _ _ _ _ h3) hn⟩
      · rw [h] at he; simp at he
    · intro p e he
      rcases proxied_effect hx p with h | ⟨proof, url, m, e', _, _, h1, _, h2, h3, _, _, _, _, h⟩ | ⟨_, _, _, _, _, h⟩
      · rw [h] at he
        exact ⟨(ih2 p e he).1, Nat.le_trans (ih2 p e he).2 hn⟩
      · rw [h] at he
        simp only [Option.some.injEq] at he
        subst he
        exact ⟨h1 ▸ h2, Nat.le_trans (hts _ _ _ _ h3) hn⟩
      · rw [h] at he; simp at he
  · exact ⟨fun a e h => by rw [h0.1] at h; simp at h, fun p e h => by rw [h0.2] at h; simp at h⟩

example : ((run okCfg start [.ext (.signed alice) (.registerSgxEnclave [] (some (bytes 256 1)) (.skip false))]).tx.sovereign
    alice).map (fun e => (e.url.map List.length, e.timestamp)) = some (some 256, 5000) := by decide +kernel

/-- C26: a proof longer than 5000 bytes, or a URL longer than 256 bytes, is refused. -/
theorem C26_long_refused (c : Cfg) (s s' : Chain) (o : Origin) (proof : Bytes) (url : Option Bytes)
    (m : SgxAttestationMethod) (h : 5000 < proof.length ∨ ∃ u, url = some u ∧ 256 < u.length) :
    exec c s (.ext o (.registerSgxEnclave proof url m)) ≠ .ok s' := by
  intro hx
  obtain ⟨_, _, _, h1, h2, _⟩ := register_iff.mp hx
  rcases h with h | ⟨u, hu, h⟩
  · omega
  · have := h2 u hu; omega

example : (accepted okCfg start [.ext (.signed alice) (.registerSgxEnclave (bytes 5000 1) (some (bytes 256 1)) (.skip false)),
    .ext (.signed alice) (.registerSgxEnclave (bytes 5001 1) none (.skip false)),
    .ext (.signed alice) (.registerSgxEnclave [] (some (bytes 257 1)) (.skip false))]).length = 1 ∧
    ((run okCfg start dcapHistory).tx.sovereign alice).map (·.timestamp) = some 5000 := by
  decide +kernel

/-! ### C70 The IAS signing certificate is valid when it is used -/

/-- A call that succeeds yields the state of `step`. -/
theorem exec_of_isOk {c : Cfg} {s : Chain} {op : Op} (h : (exec c s op).isOk = true) :
    exec c s op = .ok (step c s op) := by
  unfold step
  cases hx : exec c s op with
  | ok s' => rfl
  | error e => rw [hx] at h; simp [Except.isOk, Except.toBool] at h

/-- The full claim. It is false for the code (see `C70_refuted`). -/
def C70_Full : Prop :=
  ∀ (c : Cfg) (s s' : Chain) (o : Origin) (proof : Bytes) (url : Option Bytes),
    exec c s (.ext o (.registerSgxEnclave proof url .ias)) = .ok s' →
    ∃ report sig cert, NetscapeIn c.ext proof report sig cert ∧ c.ext.iasCertValid cert (s.now / 1000) = true

/-- A certificate that was valid at one instant in 2019 only is accepted at any time. -/
theorem C70_refuted : ¬ C70_Full := by
  intro h
  obtain ⟨_, _, cert, _, h2⟩ := h { okCfg with ext := { okExt with iasCertValid := fun _ t => t == 1573419050 } } start _
    (.signed alice) iasProof none (exec_of_isOk (by decide +kernel))
  revert h2
  show ¬ ((start.now / 1000 == 1573419050) = true)
  decide +kernel

/-- C70, partial: the certificate of an accepted IAS proof was valid on 10 November 2019 and its key signed the
report. Missing: validity at the time of registration. -/
theorem C70_cert_valid_2019_partial (c : Cfg) (s s' : Chain) (o : Origin) (proof : Bytes) (url : Option Bytes)
    (h : exec c s (.ext o (.registerSgxEnclave proof url .ias)) = .ok s') :
    ∃ report sig cert, NetscapeIn c.ext proof report sig cert ∧ c.ext.iasCertValid cert 1573419050 = true ∧
      c.ext.certVerifySig .rsaPkcs1Sha256 cert report sig = true := by
  obtain ⟨r, hr, _⟩ := C17_ias_fresh c s s' o proof url h
  obtain ⟨report, sig, cert, _, _, _, _, _, _, h1, _, h2, h3, _⟩ := (verifyIasReport_ok.mp hr).signed
  exact ⟨report, sig, cert, h1, h3, h2⟩

example : (exec okCfg start (.ext (.signed alice) (.registerSgxEnclave iasProof none .ias))).isOk = true := by
  decide +kernel

/-! ### C71 Enclaves on out-of-date or revoked platforms are not registered -/

/-- The full claim. It is false for the code (see `C71_refuted`). -/
def C71_Full : Prop :=
  ∀ (c : Cfg) (s0 : Chain) (ops : List Op) (a : AccountId) (e : SgxEnclave), NoEnclaves s0 →
    (run c s0 ops).tx.sovereign a = some e → e.status ≠ .groupRevoked ∧ e.status ≠ .groupOutOfDate

/-- The demo platform is out of date and gets registered nevertheless. -/
theorem C71_refuted : ¬ C71_Full := by
  intro h
  have h1 : ((run okCfg start dcapHistory).tx.sovereign alice).map (·.status) = some .groupOutOfDate := by
    decide +kernel
  cases he : (run okCfg start dcapHistory).tx.sovereign alice with
  | none => rw [he] at h1; simp at h1
  | some e =>
    rw [he] at h1
    simp only [Option.map_some, Option.some.injEq] at h1
    exact (h okCfg start dcapHistory alice e ⟨fun _ => rfl, fun _ => rfl⟩ he).2 h1

/-- C71, partial: the registry tells the truth about the platform: an entry with status `Ok` obtained by DCAP
belongs to a platform whose first dominated TCB level is up to date (possibly needing software hardening), and
one obtained by IAS has a signed report saying "OK". Missing: other statuses are registered, too. -/
theorem C71_status_truthful_partial (c : Cfg) (s0 : Chain) (ops : List Op) (h0 : NoEnclaves s0) (a : AccountId)
    (e : SgxEnclave) (h : (run c s0 ops).tx.sovereign a = some e) (hok : e.status = .ok) :
    ∃ s proof, (s, .ext (.signed a) (.registerSgxEnclave proof e.url e.method)) ∈ accepted c s0 ops ∧
      ((e.method = .dcap false ∧ ∃ f t r info before level after,
          verifyDcapQuote c.ext proof s.now s.tx.qe = .ok (f, t, r) ∧ s.tx.tcb f = some info ∧
          info.tcbLevels = before ++ level :: after ∧ Dominated level t ∧ (∀ l ∈ before, ¬ Dominated l t) ∧
          (level.tcbStatus = .upToDate ∨ level.tcbStatus = .swHardeningNeeded)) ∨
       (e.method = .ias ∧ ∃ report sig cert js, NetscapeIn c.ext proof report sig cert ∧
          c.ext.certVerifySig .rsaPkcs1Sha256 cert report sig = true ∧ c.ext.jsonReport report = some js ∧
          js.quoteStatus = some "OK")) := by
  obtain ⟨_, hm, s, proof, hmem, hatt⟩ := C12_sovereign_own_key c s0 ops h0 a e h
  refine ⟨s, proof, hmem, ?_⟩
  rcases hm with hm | hm | hm
  · simp only [Attested, hm] at hatt
    obtain ⟨r, h1, _, h2, _⟩ := hatt
    obtain ⟨report, sig, cert, js, _, _, st, _, _, h3, _, h4, _, h5, _, _, _, h6, h7, _⟩ := h1.signed
    refine .inr ⟨hm, report, sig, cert, js, h3, h4, h5, ?_⟩
    rw [h6]
    rw [hok, h7] at h2
    unfold iasStatus at h2
    split at h2
    · simp_all
    · repeat' split at h2
      all_goals simp at h2
  · simp only [Attested, hm] at hatt
    obtain ⟨f, t, r, info, h1, _, h2, before, level, after, h3, h4, h5, h6⟩ := hatt
    refine .inl ⟨hm, f, t, r, info, before, level, after, verifyDcapQuote_ok.mpr h1, h2, h3, h4, h5, ?_⟩
    rw [hok] at h6
    simp [statusTable] at h6
    rcases h6 with h6 | h6
    · exact .inl h6
    · exact .inr h6
  · simp only [Attested, hm] at hatt
    rw [hok] at hatt
    simp at hatt

example : NoEnclaves start ∧
    ((run okCfg start [.ext (.signed alice) (.registerSgxEnclave iasProof none .ias)]).tx.sovereign alice).map
      (·.status) = some .ok :=
  ⟨⟨fun _ => rfl, fun _ => rfl⟩, by decide +kernel⟩

/-- The words for the status in a report of IAS that the registry knows. -/
def iasWords : List (String × SgxStatus) :=
  [("OK", .ok), ("GROUP_OUT_OF_DATE", .groupOutOfDate), ("GROUP_REVOKED", .groupRevoked),
   ("CONFIGURATION_NEEDED", .configurationNeeded)]

/-- The status of an entry is the one that its proof shows: the word in the signed report of IAS (`invalid` for any other word),
the status of the first level of the TCB info that the platform of the quote reaches, or `invalid` without attestation. -/
def StatusShown (c : Cfg) (s : Chain) (proof : Bytes) (e : SgxEnclave) : Prop :=
  match e.method with
  | .ias => ∃ report sig cert js st, NetscapeIn c.ext proof report sig cert ∧
      c.ext.certVerifySig .rsaPkcs1Sha256 cert report sig = true ∧ c.ext.jsonReport report = some js ∧ js.quoteStatus = some st ∧
      ((st, e.status) ∈ iasWords ∨ (∀ w, (st, w) ∉ iasWords) ∧ e.status = .invalid)
  | .dcap _ => ∃ f t r info, verifyDcapQuote c.ext proof s.now s.tx.qe = .ok (f, t, r) ∧ s.tx.tcb f = some info ∧
      FirstDominated info t e.status
  | .skip _ => e.status = .invalid

theorem statusShown_of_attested {c : Cfg} {s : Chain} {a : AccountId} {proof : Bytes} {e : SgxEnclave} (h : Attested c s a proof e) :
    StatusShown c s proof e := by
  cases hm : e.method with
  | ias =>
    simp only [Attested, StatusShown, hm] at h ⊢
    obtain ⟨r, h1, _, h2, _⟩ := h
    obtain ⟨report, sig, cert, js, _, _, st, _, _, h3, _, h4, _, h5, _, _, _, h6, h7, _⟩ := h1.signed
    refine ⟨report, sig, cert, js, st, h3, h4, h5, h6, ?_⟩
    rw [h2, h7]
    unfold iasStatus iasWords
    repeat' split
    all_goals simp_all
  | dcap p =>
    simp only [Attested, StatusShown, hm] at h ⊢
    obtain ⟨f, t, r, info, h1, _, h2, h3⟩ := h
    exact ⟨f, t, r, info, verifyDcapQuote_ok.mpr h1, h2, h3⟩
  | skip p =>
    simp only [Attested, StatusShown, hm] at h ⊢
    exact h.2.2.2.2.2.2.2

/-- C71, partial: the status of every entry of both registries, whatever it is, is the one shown by the proof that was accepted
for it. Missing: bad statuses are registered, too. -/
theorem C71_status_shown_partial (c : Cfg) (s0 : Chain) (ops : List Op) (h0 : NoEnclaves s0) :
    (∀ a e, (run c s0 ops).tx.sovereign a = some e →
      ∃ s proof, (s, .ext (.signed a) (.registerSgxEnclave proof e.url e.method)) ∈ accepted c s0 ops ∧ StatusShown c s proof e) ∧
    (∀ p e, (run c s0 ops).tx.proxied p = some e →
      ∃ s proof, (s, .ext (.signed p.registrar) (.registerSgxEnclave proof e.url e.method)) ∈ accepted c s0 ops ∧
        StatusShown c s proof e) := by
  constructor
  · intro a e h
    obtain ⟨_, _, s, proof, hmem, hatt⟩ := C12_sovereign_own_key c s0 ops h0 a e h
    exact ⟨s, proof, hmem, statusShown_of_attested hatt⟩
  · intro p e h
    obtain ⟨_, _, _, s, proof, hmem, hatt⟩ := C13_proxied_address c s0 ops h0 p e h
    exact ⟨s, proof, hmem, statusShown_of_attested hatt⟩

/-- Both registries, with a platform that is out of date. -/
example : NoEnclaves start ∧
    ((run okCfg start dcapHistory).tx.sovereign alice).map (·.status) = some .groupOutOfDate ∧
    ((run okCfg start dcapHistory).tx.proxied proxiedAddress).map (·.status) = some .groupOutOfDate :=
  ⟨⟨fun _ => rfl, fun _ => rfl⟩, by decide +kernel, by decide +kernel⟩

/-! ### C72 A stale DCAP attestation cannot be used again -/

/-- The full claim. It is false for the code (see `C72_refuted`). -/
def C72_Full : Prop :=
  ∀ (c : Cfg) (s0 s1 s2 s3 : Chain) (a b : AccountId) (proof : Bytes) (url url' : Option Bytes)
    (ops1 ops2 : List Op), c.momentsPerDay ≤ c.maxRenewal →
    exec c s0 (.ext (.signed a) (.registerSgxEnclave proof url (.dcap false))) = .ok s1 →
    (run c s1 ops1).tx.sovereign a = s1.tx.sovereign a →
    exec c (run c s1 ops1) (.ext (.signed b) (.unregisterSovereignEnclave a)) = .ok s2 →
    exec c (run c s2 ops2) (.ext (.signed a) (.registerSgxEnclave proof url' (.dcap false))) ≠ .ok s3

/-- The same quote is accepted again after the enclave was removed for being stale. -/
theorem C72_refuted : ¬ C72_Full := by
  intro h
  have h0 : okCfg.momentsPerDay ≤ okCfg.maxRenewal := by decide +kernel
  exact h okCfg (run okCfg start [regTcb 3, regQe 3]) _ _ _ alice bob (quote 0 alice.val) none none
    [.newBlock 172801000] [] h0 (exec_of_isOk (by decide +kernel)) (by decide +kernel)
    (exec_of_isOk (by decide +kernel)) (exec_of_isOk (by decide +kernel))

/-- C72, partial: a renewed DCAP registration needs a certificate chain that is valid at the new time, and the
current collateral of the platform has to accept it. Missing: nothing in the quote ties it to a date, so that
the timestamp of the entry is the time of the call and not the time of the attestation. -/
theorem C72_dcap_renewal_partial (c : Cfg) (s s' : Chain) (o : Origin) (proof : Bytes) (url : Option Bytes) (p : Bool)
    (h : exec c s (.ext o (.registerSgxEnclave proof url (.dcap p))) = .ok s') :
    ∃ f t r info st, verifyDcapQuote c.ext proof s.now s.tx.qe = .ok (f, t, r) ∧ r.timestamp = s.now ∧
      s.tx.tcb f = some info ∧ FirstDominated info t st ∧
      ∃ leaf inter, (extractCerts c.ext (sub proof (1020 + authSize proof) (certSize proof))) = leaf :: inter ∧
        c.ext.dcapChainValid leaf inter (s.now / 1000) = true := by
  obtain ⟨a, e, rfl, h1, h2, h3, h4, h5, _⟩ := register_iff.mp h
  simp only [Attested, h3] at h5
  obtain ⟨f, t, r, info, h6, _, h7, h8⟩ := h5
  obtain ⟨leaf, i, inter, _, h9, _, h10, _⟩ := h6.leaf
  exact ⟨f, t, r, info, e.status, verifyDcapQuote_ok.mpr h6, h6.timestamp, h7, h8, leaf, _, h9, h10⟩

example : (exec okCfg (run okCfg start [regTcb 3, regQe 3])
    (.ext (.signed alice) (.registerSgxEnclave (quote 0 alice.val) none (.dcap false)))).isOk = true := by
  decide +kernel

/-! ### C76 An accepted IAS report is authentic -/

/-- C76: `verify_ias_report` accepts a certificate exactly if its Netscape comment holds a report signed by a
certificate accepted as Intel's, and returns exactly the contents of that report. -/
theorem C76_ias_authentic (x : Ext) (der : Bytes) (r : SgxVerifiedReport) :
    verifyIasReport x der = .ok r ↔ AuthenticIas x der r := verifyIasReport_ok

example : (verifyIasReport okExt iasProof).isOk = true := by decide +kernel

/-- C76: the status strings and the object identifier used in the specification. -/
theorem C76_ias_constants (st : String) :
    (iasStatus st = .ok ↔ st = "OK") ∧ (iasStatus st = .groupOutOfDate ↔ st = "GROUP_OUT_OF_DATE") ∧
    (iasStatus st = .groupRevoked ↔ st = "GROUP_REVOKED") ∧
    (iasStatus st = .configurationNeeded ↔ st = "CONFIGURATION_NEEDED") ∧
    -- 2.16.840.1.113730.1.13, Netscape certificate comment
    nsCmtOid = [0x06, 0x09, 0x60, 0x86, 0x48, 0x01, 0x86, 0xF8, 0x42, 0x01, 0x0D] := by
  unfold iasStatus
  refine ⟨?_, ?_, ?_, ?_, rfl⟩ <;> (repeat' split) <;> simp_all

example : iasStatus "GROUP_REVOKED" = .groupRevoked ∧ iasStatus "SW_HARDENING_NEEDED" = .invalid := by decide

example : ∃ r, AuthenticIas okExt iasProof r := by
  have : (verifyIasReport okExt iasProof).isOk = true := by decide +kernel
  cases h : verifyIasReport okExt iasProof with
  | ok r => exact ⟨r, verifyIasReport_ok.mp h⟩
  | error e => rw [h] at this; simp [Except.isOk, Except.toBool] at this

end Verif
