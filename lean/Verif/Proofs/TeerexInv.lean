import Verif.Proofs.IasReport
import Verif.Proofs.Frame
import Verif.Spec.Events

/-!
# Registry effects of every operation
-/

namespace Verif

theorem isProxied_eq (e : SgxEnclave) : e.method.isProxied = e.proxied := by
  unfold SgxEnclave.proxied
  cases h : e.method with
  | ias => rfl
  | skip p => cases p <;> rfl
  | dcap p => cases p <;> rfl

namespace Teerex

theorem mrEnclaveOfProof_val (p : Bytes) :
    (32 ≤ p.length → (mrEnclaveOfProof p).val = sub p 0 32) ∧
    (p.length < 32 → (mrEnclaveOfProof p).val = List.replicate 32 0) := by
  unfold mrEnclaveOfProof rdArr sub
  constructor
  · intro h; simp [h]
  · intro h; simp [Nat.not_le.mpr h, Arr.zero]

theorem mrEnclaveOfProof_eq {p : Bytes} {m : MrEnclave} (h1 : 32 ≤ p.length → m.val = sub p 0 32)
    (h2 : p.length < 32 → m.val = List.replicate 32 0) : m = mrEnclaveOfProof p := by
  apply Subtype.ext
  have := mrEnclaveOfProof_val p
  by_cases h : 32 ≤ p.length
  · rw [h1 h, this.1 h]
  · rw [h2 (by omega), this.2 (by omega)]

/-- The entry a successful registration stores, without the url. -/
theorem attest_ok {c : Cfg} {s : Chain} {a : AccountId} {proof : Bytes} {m : SgxAttestationMethod}
    {e : SgxEnclave} : attest c s a proof m = .ok e ↔ e.method = m ∧ e.url = none ∧ Attested c s a proof e ∧
      (e.proxied = false → e.reportData.val.take 32 = a.val) := by
  cases m with
  | ias =>
    rw [attest_ias_ok]
    constructor
    · rintro ⟨r, h1, h2, h3, h4, rfl⟩
      refine ⟨rfl, rfl, ⟨r, verifyIasReport_ok.mp h1, ⟨rfl, rfl, rfl, rfl, rfl⟩, rfl, h2, by omega⟩, ?_⟩
      intro _; rw [h4]; rfl
    · rintro ⟨hm, hu, ha, hp⟩
      simp only [Attested, hm] at ha
      obtain ⟨r, h1, ⟨e1, e2, e3, e4, e5⟩, h2, h3, h4⟩ := ha
      refine ⟨r, verifyIasReport_ok.mpr h1, h3, by omega, ?_, ?_⟩
      · apply Subtype.ext
        rw [← e1]
        exact (hp (by simp [SgxEnclave.proxied, hm])).symm
      · cases e; simp_all
  | dcap p =>
    rw [attest_dcap_ok]
    constructor
    · rintro ⟨f, t, r, ref, st, h1, h2, h3, h4, rfl⟩
      refine ⟨rfl, rfl, ⟨f, t, r, ref, verifyDcapQuote_ok.mp h1, ⟨rfl, rfl, rfl, rfl, rfl⟩, h3,
        firstDominated_iff.mp h4⟩, ?_⟩
      intro hp
      rcases h2 with h2 | h2
      · subst h2; simp [SgxEnclave.proxied] at hp
      · rw [h2]; rfl
    · rintro ⟨hm, hu, ha, hp⟩
      simp only [Attested, hm] at ha
      obtain ⟨f, t, r, info, h1, ⟨e1, e2, e3, e4, e5⟩, h2, h3⟩ := ha
      refine ⟨f, t, r, info, e.status, verifyDcapQuote_ok.mpr h1, ?_, h2, firstDominated_iff.mpr h3, ?_⟩
      · cases p with
        | true => exact .inl rfl
        | false =>
          refine .inr (Subtype.ext ?_)
          rw [← e1]
          exact (hp (by simp [SgxEnclave.proxied, hm])).symm
      · cases e; simp_all
  | skip p =>
    rw [attest_skip_ok]
    constructor
    · rintro ⟨h, rfl⟩
      refine ⟨rfl, rfl, ⟨h, rfl, (mrEnclaveOfProof_val proof).1, (mrEnclaveOfProof_val proof).2, rfl, rfl, rfl, rfl⟩, ?_⟩
      intro _
      simp [skipReportData, a.property]
    · rintro ⟨hm, hu, ha, hp⟩
      simp only [Attested, hm] at ha
      obtain ⟨h, h1, h2, h3, h4, h5, h6, h7⟩ := ha
      refine ⟨h, ?_⟩
      have e1 : e.reportData = skipReportData a := Subtype.ext h1
      have e2 : e.mrSigner = Arr.zero 32 := Subtype.ext h4
      have e3 := mrEnclaveOfProof_eq h2 h3
      cases e; simp_all

theorem instanceSigner_proxied {e : SgxEnclave} (h : e.proxied = true) :
    e.instanceSigner = some (.opaque (e.reportData.val ++ [0, 0])) := by
  unfold SgxEnclave.proxied at h
  have hd := e.reportData.property
  unfold SgxEnclave.instanceSigner SgxEnclave.maybePubkey AnySigner.from64 opaqueTryFrom
  split at h <;> simp_all [List.replicate]

end Teerex

/-- Every entry attribute except the url is untouched by `withUrl`, and the url is the given one. -/
theorem Attested.withUrl {c : Cfg} {s : Chain} {a : AccountId} {proof : Bytes} {e : SgxEnclave}
    {u : Option Bytes} (h : Attested c s a proof e) : Attested c s a proof (e.withUrl u) := by
  cases u <;> exact h

/-- What a call of `register_sgx_enclave` does, exactly. -/
theorem register_iff {c : Cfg} {s s' : Chain} {o : Origin} {proof : Bytes} {url : Option Bytes}
    {m : SgxAttestationMethod} :
    exec c s (.ext o (.registerSgxEnclave proof url m)) = .ok s' ↔
      ∃ a e, o = .signed a ∧ proof.length ≤ 5000 ∧ (∀ u, url = some u → u.length ≤ 256) ∧
        e.method = m ∧ e.url = url ∧ Attested c s a proof e ∧
        (s.tx.allowDebug = true ∨ e.buildMode ≠ .debug) ∧
        ((e.proxied = false ∧ e.reportData.val.take 32 = a.val ∧
            s' = { s with tx := { s.tx with
              sovereign := upd s.tx.sovereign a (some e)
              events := .addedSgxEnclave a url (some e.status) m :: s.tx.events } }) ∨
         (e.proxied = true ∧ s' = { s with tx := { s.tx with
              proxied := upd s.tx.proxied ⟨e.mrEnclave, a, .opaque (e.reportData.val ++ [0, 0])⟩ (some e)
              events := .addedSgxEnclave a url (some e.status) m :: s.tx.events } })) := by
  show Teerex.registerSgxEnclave c s o proof url m = .ok s' ↔ _
  rw [Teerex.registerSgxEnclave_ok]
  constructor
  · rintro ⟨a, e, rfl, h1, h2, h3, h4, h5⟩
    obtain ⟨rfl, hu, ha, hp⟩ := Teerex.attest_ok.mp h3
    have hurl : (e.withUrl url).url = url := by cases url <;> simp [SgxEnclave.withUrl, hu]
    refine ⟨a, e.withUrl url, rfl, h1, h2, by simp, hurl, ha.withUrl, by simpa using h4, ?_⟩
    rcases h5 with ⟨h5, rfl⟩ | ⟨h5, g, h6, rfl⟩
    · left; exact ⟨by simpa using h5, by simpa using hp h5, by simp⟩
    · right
      rw [Teerex.instanceSigner_proxied h5] at h6
      simp only [Option.some.injEq] at h6
      subst h6
      exact ⟨by simpa using h5, by simp [SgxEnclave.fingerprint]⟩
  · rintro ⟨a, e, rfl, h1, h2, hm, hu, ha, h4, h5⟩
    have hw : ({ e with url := none } : SgxEnclave).withUrl url = e := by
      cases url <;> cases e <;> simp_all [SgxEnclave.withUrl]
    refine ⟨a, { e with url := none }, rfl, h1, h2, ?_, h4, ?_⟩
    · rw [Teerex.attest_ok]
      refine ⟨hm, rfl, ha, ?_⟩
      intro hp
      rcases h5 with ⟨_, h5, _⟩ | ⟨h5, _⟩
      · exact h5
      · have : e.proxied = false := hp
        rw [this] at h5; exact absurd h5 (by simp)
    · rw [hw]
      rcases h5 with ⟨h5, _, rfl⟩ | ⟨h5, rfl⟩
      · left; exact ⟨h5, by rw [hm]⟩
      · right; exact ⟨h5, _, Teerex.instanceSigner_proxied (e := { e with url := none }) h5, by rw [hm]; rfl⟩

/-- Operations that are not calls of teerex leave its storage alone. -/
theorem tx_frame {c : Cfg} {s s' : Chain} {op : Op} (h : exec c s op = .ok s') (hp : Part.teerex ∉ op.parts) :
    s'.tx = s.tx := exec_frame h .teerex hp

/-- Effect of any operation on one slot of the sovereign registry. -/
theorem sovereign_effect {c : Cfg} {s s' : Chain} {op : Op} (h : exec c s op = .ok s') (a : AccountId) :
    s'.tx.sovereign a = s.tx.sovereign a ∨
    (∃ proof url m e, op = .ext (.signed a) (.registerSgxEnclave proof url m) ∧ e.method = m ∧ e.url = url ∧
      proof.length ≤ 5000 ∧ (∀ u, url = some u → u.length ≤ 256) ∧ Attested c s a proof e ∧
      (s.tx.allowDebug = true ∨ e.buildMode ≠ .debug) ∧ e.proxied = false ∧
      e.reportData.val.take 32 = a.val ∧ s'.tx.sovereign a = some e) ∨
    (∃ b e, op = .ext (.signed b) (.unregisterSovereignEnclave a) ∧ s.tx.sovereign a = some e ∧
      e.timestamp + c.maxRenewal < s.now ∧ s'.tx.sovereign a = none) := by
  by_cases hp : Part.teerex ∈ op.parts
  · cases op with
    | ext o k =>
      cases k with
      | registerSgxEnclave proof url m =>
        obtain ⟨b, e, rfl, h1, h2, h3, h4, h5, h6, (⟨h7, h8, rfl⟩ | ⟨h7, rfl⟩)⟩ := register_iff.mp h
        · by_cases hab : a = b
          · subst hab
            exact .inr (.inl ⟨proof, url, m, e, rfl, h3, h4, h1, h2, h5, h6, h7, h8, by simp⟩)
          · left; simp [hab]
        · left; rfl
      | unregisterSovereignEnclave x =>
        obtain ⟨b, e, rfl, h1, h2, rfl⟩ := Teerex.unregisterSovereignEnclave_ok.mp h
        by_cases hab : a = x
        · subst hab
          exact .inr (.inr ⟨b, e, rfl, h1, by omega, by simp⟩)
        · left; simp [hab]
      | unregisterProxiedEnclave x =>
        obtain ⟨b, e, rfl, h1, h2, rfl⟩ := Teerex.unregisterProxiedEnclave_ok.mp h
        left; rfl
      | registerQuotingEnclave =>
        obtain ⟨_, _, _, _, rfl⟩ := Teerex.registerQuotingEnclave_ok.mp h
        left; rfl
      | registerTcbInfo =>
        obtain ⟨_, _, _, _, _, rfl⟩ := Teerex.registerTcbInfo_ok.mp h
        left; rfl
      | setSecurityFlags =>
        obtain ⟨_, rfl⟩ := Teerex.setSecurityFlags_ok.mp h
        left; rfl
      | claims k => cases k <;> simp [Op.parts, Call.parts] at hp
      | _ => simp [Op.parts, Call.parts] at hp
    | _ => simp [Op.parts] at hp
  · left; rw [tx_frame h hp]

/-- Effect of any operation on one slot of the proxied registry. -/
theorem proxied_effect {c : Cfg} {s s' : Chain} {op : Op} (h : exec c s op = .ok s')
    (p : EnclaveInstanceAddress) :
    s'.tx.proxied p = s.tx.proxied p ∨
    (∃ proof url m e, op = .ext (.signed p.registrar) (.registerSgxEnclave proof url m) ∧ e.method = m ∧
      e.url = url ∧ proof.length ≤ 5000 ∧ (∀ u, url = some u → u.length ≤ 256) ∧
      Attested c s p.registrar proof e ∧
      (s.tx.allowDebug = true ∨ e.buildMode ≠ .debug) ∧ e.proxied = true ∧
      p.fingerprint = e.mrEnclave ∧ p.signer = .opaque (e.reportData.val ++ [0, 0]) ∧
      s'.tx.proxied p = some e) ∨
    (∃ b e, op = .ext (.signed b) (.unregisterProxiedEnclave p) ∧ s.tx.proxied p = some e ∧
      e.timestamp + c.maxRenewal < s.now ∧ s'.tx.proxied p = none) := by
  by_cases hp : Part.teerex ∈ op.parts
  · cases op with
    | ext o k =>
      cases k with
      | registerSgxEnclave proof url m =>
        obtain ⟨b, e, rfl, h1, h2, h3, h4, h5, h6, (⟨h7, h8, rfl⟩ | ⟨h7, rfl⟩)⟩ := register_iff.mp h
        · left; rfl
        · by_cases hab : p = ⟨e.mrEnclave, b, .opaque (e.reportData.val ++ [0, 0])⟩
          · subst hab
            exact .inr (.inl ⟨proof, url, m, e, rfl, h3, h4, h1, h2, h5, h6, h7, rfl, rfl, by simp⟩)
          · left; simp [hab]
      | unregisterSovereignEnclave x =>
        obtain ⟨b, e, rfl, h1, h2, rfl⟩ := Teerex.unregisterSovereignEnclave_ok.mp h
        left; rfl
      | unregisterProxiedEnclave x =>
        obtain ⟨b, e, rfl, h1, h2, rfl⟩ := Teerex.unregisterProxiedEnclave_ok.mp h
        by_cases hab : p = x
        · subst hab
          exact .inr (.inr ⟨b, e, rfl, h1, by omega, by simp⟩)
        · left; simp [hab]
      | registerQuotingEnclave =>
        obtain ⟨_, _, _, _, rfl⟩ := Teerex.registerQuotingEnclave_ok.mp h
        left; rfl
      | registerTcbInfo =>
        obtain ⟨_, _, _, _, _, rfl⟩ := Teerex.registerTcbInfo_ok.mp h
        left; rfl
      | setSecurityFlags =>
        obtain ⟨_, rfl⟩ := Teerex.setSecurityFlags_ok.mp h
        left; rfl
      | claims k => cases k <;> simp [Op.parts, Call.parts] at hp
      | _ => simp [Op.parts, Call.parts] at hp
    | _ => simp [Op.parts] at hp
  · left; rw [tx_frame h hp]

theorem toChain_iff {p : TcbInfo} {f : Fmspc} {i : SgxTcbInfoOnChain} :
    p.toChain = some (f, i) ↔ f = p.fmspc ∧ (i.issueDate : Int) = p.issueDate ∧
      (i.nextUpdate : Int) = p.nextUpdate ∧ i.tcbLevels.length = p.tcbLevels.length ∧
    ∀ k (h : k < i.tcbLevels.length) (h' : k < p.tcbLevels.length),
      i.tcbLevels[k].cpusvn.val = p.tcbLevels[k].components.val.map (·.svn) ∧ i.tcbLevels[k].pcesvn = p.tcbLevels[k].pcesvn ∧
      i.tcbLevels[k].tcbStatus = p.tcbLevels[k].tcbStatus := by
  unfold TcbInfo.toChain
  simp only [Option.bind_eq_bind, Option.bind_eq_some_iff, millisToU64_some, Option.some.injEq, Prod.mk.injEq]
  constructor
  · rintro ⟨a, ha, b, hb, rfl, rfl⟩
    exact ⟨rfl, ha, hb, by simp, by simp [TcbLevelFull.svns]⟩
  · rintro ⟨rfl, ha, hb, hl, hk⟩
    refine ⟨_, ha, _, hb, rfl, ?_⟩
    have : i.tcbLevels = p.tcbLevels.map fun l =>
        ({ cpusvn := l.svns, pcesvn := l.pcesvn, tcbStatus := l.tcbStatus } : TcbVersionStatus) := by
      apply List.ext_getElem (by simpa using hl)
      intro k h1 h2
      have h3 : k < p.tcbLevels.length := by simpa using h2
      obtain ⟨e1, e2, e3⟩ := hk k h1 h3
      simp only [List.getElem_map]
      rw [← e2, ← e3, ← show i.tcbLevels[k].cpusvn = p.tcbLevels[k].svns from Subtype.ext e1]
    rw [← this]

theorem toQuotingEnclave_iff {p : EnclaveIdentity} {q : SgxQuotingEnclave} :
    p.toQuotingEnclave = some q ↔ (q.issueDate : Int) = p.issueDate ∧ (q.nextUpdate : Int) = p.nextUpdate ∧
    q.miscselect = p.miscselect ∧ q.miscselectMask = p.miscselectMask ∧ q.attributes = p.attributes ∧
    q.attributesMask = p.attributesMask ∧ q.mrsigner = p.mrsigner ∧ q.isvprodid = p.isvprodid ∧
    q.tcb = p.tcbLevels.map (·.isvsvn) := by
  unfold EnclaveIdentity.toQuotingEnclave
  simp only [Option.bind_eq_bind, Option.bind_eq_some_iff, millisToU64_some, Option.some.injEq]
  constructor
  · rintro ⟨a, ha, b, hb, rfl⟩
    exact ⟨ha, hb, rfl, rfl, rfl, rfl, rfl, rfl, rfl⟩
  · rintro ⟨ha, hb, h1, h2, h3, h4, h5, h6, h7⟩
    refine ⟨_, ha, _, hb, ?_⟩
    cases q; simp_all

theorem signedTcbInfo_iff {c : Cfg} {s : Chain} {d g ch : Bytes} {f : Fmspc} {i : SgxTcbInfoOnChain} :
    Teerex.verifyTcbInfo c s d g ch = .ok (f, i) ↔ s.now < 2 ^ 63 ∧ SignedTcbInfo c s.now d g ch f i := by
  rw [Teerex.verifyTcbInfo_ok]
  simp only [TcbInfo.isValid, Bool.and_eq_true, beq_iff_eq, decide_eq_true_eq, toChain_iff, SignedTcbInfo]
  constructor
  · rintro ⟨leaf, x, rest, der, p, h1, h2, h3, h4, h5, h6, h7, ⟨⟨⟨h8, h9⟩, h10⟩, h11⟩, h12⟩
    exact ⟨h7, leaf, x, rest, der, p, h1, h2, h3, h4, h5, h6, h8, h9, h10, h11, h12⟩
  · rintro ⟨h7, leaf, x, rest, der, p, h1, h2, h3, h4, h5, h6, h8, h9, h10, h11, h12⟩
    exact ⟨leaf, x, rest, der, p, h1, h2, h3, h4, h5, h6, h7, ⟨⟨⟨h8, h9⟩, h10⟩, h11⟩, h12⟩

theorem signedIdentity_iff {c : Cfg} {s : Chain} {d g ch : Bytes} {q : SgxQuotingEnclave} :
    Teerex.verifyQuotingEnclave c s d g ch = .ok q ↔ s.now < 2 ^ 63 ∧ SignedIdentity c s.now d g ch q := by
  rw [Teerex.verifyQuotingEnclave_ok]
  simp only [EnclaveIdentity.isValid, Bool.and_eq_true, beq_iff_eq, decide_eq_true_eq, toQuotingEnclave_iff,
    SignedIdentity]
  constructor
  · rintro ⟨leaf, x, rest, der, p, h1, h2, h3, h4, h5, h6, h7, ⟨⟨⟨h8, h9⟩, h10⟩, h11⟩, h12⟩
    exact ⟨h7, leaf, x, rest, der, p, h1, h2, h3, h4, h5, h6, h8, h9, h10, h11, h12⟩
  · rintro ⟨h7, leaf, x, rest, der, p, h1, h2, h3, h4, h5, h6, h8, h9, h10, h11, h12⟩
    exact ⟨leaf, x, rest, der, p, h1, h2, h3, h4, h5, h6, h7, ⟨⟨⟨h8, h9⟩, h10⟩, h11⟩, h12⟩

/-- Effect of any operation on the stored collateral. -/
theorem collateral_effect {c : Cfg} {s s' : Chain} {op : Op} (h : exec c s op = .ok s') :
    (s'.tx.qe = s.tx.qe ∨ ∃ b d g ch, op = .ext (.signed b) (.registerQuotingEnclave d g ch) ∧
      SignedIdentity c s.now d g ch s'.tx.qe) ∧
    (∀ f, s'.tx.tcb f = s.tx.tcb f ∨ ∃ b d g ch i, op = .ext (.signed b) (.registerTcbInfo d g ch) ∧
      s'.tx.tcb f = some i ∧ SignedTcbInfo c s.now d g ch f i) := by
  by_cases hp : Part.teerex ∈ op.parts
  · cases op with
    | ext o k =>
      cases k with
      | registerSgxEnclave proof url m =>
        obtain ⟨b, e, rfl, h1, h2, h3, h4, h5, h6, (⟨h7, h8, rfl⟩ | ⟨h7, rfl⟩)⟩ := register_iff.mp h <;>
        exact ⟨.inl rfl, fun _ => .inl rfl⟩
      | unregisterSovereignEnclave x =>
        obtain ⟨b, e, rfl, h1, h2, rfl⟩ := Teerex.unregisterSovereignEnclave_ok.mp h
        exact ⟨.inl rfl, fun _ => .inl rfl⟩
      | unregisterProxiedEnclave x =>
        obtain ⟨b, e, rfl, h1, h2, rfl⟩ := Teerex.unregisterProxiedEnclave_ok.mp h
        exact ⟨.inl rfl, fun _ => .inl rfl⟩
      | registerQuotingEnclave d g ch =>
        obtain ⟨b, q, rfl, hq, rfl⟩ := Teerex.registerQuotingEnclave_ok.mp h
        exact ⟨.inr ⟨b, d, g, ch, rfl, (signedIdentity_iff.mp hq).2⟩, fun _ => .inl rfl⟩
      | registerTcbInfo d g ch =>
        obtain ⟨b, f, i, rfl, hi, rfl⟩ := Teerex.registerTcbInfo_ok.mp h
        refine ⟨.inl rfl, fun f' => ?_⟩
        by_cases hf : f' = f
        · subst hf
          exact .inr ⟨b, d, g, ch, i, rfl, by simp, (signedTcbInfo_iff.mp hi).2⟩
        · left; simp [hf]
      | setSecurityFlags =>
        obtain ⟨_, rfl⟩ := Teerex.setSecurityFlags_ok.mp h
        exact ⟨.inl rfl, fun _ => .inl rfl⟩
      | claims k => cases k <;> simp [Op.parts, Call.parts] at hp
      | _ => simp [Op.parts, Call.parts] at hp
    | _ => simp [Op.parts] at hp
  · rw [tx_frame h hp]; exact ⟨.inl rfl, fun _ => .inl rfl⟩

/-- Effect of any operation on the security flags. -/
theorem flags_effect {c : Cfg} {s s' : Chain} {op : Op} (h : exec c s op = .ok s') :
    (s'.tx.allowSkip = s.tx.allowSkip ∧ s'.tx.allowDebug = s.tx.allowDebug) ∨
    op = .ext .root (.setSecurityFlags s'.tx.allowSkip s'.tx.allowDebug) := by
  by_cases hp : Part.teerex ∈ op.parts
  · cases op with
    | ext o k =>
      cases k with
      | registerSgxEnclave proof url m =>
        obtain ⟨b, e, rfl, h1, h2, h3, h4, h5, h6, (⟨h7, h8, rfl⟩ | ⟨h7, rfl⟩)⟩ := register_iff.mp h <;>
        exact .inl ⟨rfl, rfl⟩
      | unregisterSovereignEnclave x =>
        obtain ⟨b, e, rfl, h1, h2, rfl⟩ := Teerex.unregisterSovereignEnclave_ok.mp h
        exact .inl ⟨rfl, rfl⟩
      | unregisterProxiedEnclave x =>
        obtain ⟨b, e, rfl, h1, h2, rfl⟩ := Teerex.unregisterProxiedEnclave_ok.mp h
        exact .inl ⟨rfl, rfl⟩
      | registerQuotingEnclave d g ch =>
        obtain ⟨b, q, rfl, hq, rfl⟩ := Teerex.registerQuotingEnclave_ok.mp h
        exact .inl ⟨rfl, rfl⟩
      | registerTcbInfo d g ch =>
        obtain ⟨b, f, i, rfl, hi, rfl⟩ := Teerex.registerTcbInfo_ok.mp h
        exact .inl ⟨rfl, rfl⟩
      | setSecurityFlags =>
        obtain ⟨rfl, rfl⟩ := Teerex.setSecurityFlags_ok.mp h
        exact .inr rfl
      | claims k => cases k <;> simp [Op.parts, Call.parts] at hp
      | _ => simp [Op.parts, Call.parts] at hp
    | _ => simp [Op.parts] at hp
  · rw [tx_frame h hp]; exact .inl ⟨rfl, rfl⟩

end Verif
