import Verif.Props.Accept
import Verif.Props.ClaimsFate
import Verif.Props.Teerdays
import Verif.Props.Lifecycle
import Verif.Props.Encoding
import Verif.Props.Platform

/-!
# Where the partial theorems stop

Several claims are false in full. The refutations elsewhere give one history each. The theorems in this file say that a claim
fails in every state in which the hypothesis of its partial theorem does not hold, or that what should make a difference makes
none in any state. So the partial theorems cannot be extended.
-/

namespace Verif

open Demo EnclaveBridge Claims

/-! ### teerdays -/

/-- C01: whenever an account with a pending unlock bonds, its lock no longer covers its bond and the pending unlock. -/
theorem C01_sharp (c : Cfg) (s s' : Chain) (a : AccountId) (v : Nat) (h : exec c s (.ext (.signed a) (.bond v)) = .ok s')
    (hv : v ≠ 0) (hf : s.bal.free a ≠ 0) (hp : pendingAmount s a ≠ 0) :
    tdLock s' a < bondValue s' a + pendingAmount s' a := by
  obtain ⟨b, hb, _, _, rfl⟩ := Teerdays.bond_ok.mp h
  cases hb
  have hm : min v (s.bal.free a) ≠ 0 := by omega
  have h2 : 0 < pendingAmount s a := by omega
  simpa [tdLock, bondValue, pendingAmount, Balances.setLock, hm, upd] using h2

/-- Alice bonds again while 1000 are still unlocking. -/
example : ∃ s', exec cfg unbonded (.ext (.signed alice) (.bond 400)) = .ok s' ∧
    tdLock s' alice < bondValue s' alice + pendingAmount s' alice :=
  have h : exec cfg unbonded (.ext (.signed alice) (.bond 400)) = .ok _ := exec_ok_of_isOk (by decide +kernel)
  ⟨_, h, C01_sharp cfg _ _ alice 400 h (by decide) (by decide +kernel) (by decide +kernel)⟩

/-- C02: an account that has unbonded everything can get out of its lock at once, but for the existential deposit, by bonding
that. -/
theorem C02_sharp (c : Cfg) (s : Chain) (a : AccountId) (hb : s.td.bonds a = none) (he : c.ed ≠ 0) (hf : c.ed ≤ s.bal.free a) :
    ∃ s', exec c s (.ext (.signed a) (.bond c.ed)) = .ok s' ∧ tdLock s' a = c.ed ∧ s'.td.pending a = s.td.pending a ∧
      s'.now = s.now := by
  refine ⟨_, Teerdays.bond_ok.mpr ⟨a, rfl, hb, Nat.le_refl _, rfl⟩, ?_, rfl, rfl⟩
  have hm : min c.ed (s.bal.free a) = c.ed := by omega
  simp [tdLock, Balances.setLock, hm, he, upd]

example : unbonded.td.bonds alice = none ∧ cfg.ed ≠ 0 ∧ cfg.ed ≤ unbonded.bal.free alice ∧ tdLock unbonded alice = 1000 := by
  decide +kernel

/-! ### teerex -/

/-- The two TCB infos have levels for the same versions, in the same order. Dates and status values may differ. -/
def SameVersions (i j : SgxTcbInfoOnChain) : Prop :=
  i.tcbLevels.map (fun l => (l.cpusvn, l.pcesvn)) = j.tcbLevels.map (fun l => (l.cpusvn, l.pcesvn))

theorem dominated_same {l m t : TcbVersionStatus} (h : (l.cpusvn, l.pcesvn) = (m.cpusvn, m.pcesvn)) : Dominated l t ↔ Dominated m t := by
  obtain ⟨h1, h2⟩ := Prod.mk.inj h
  obtain ⟨c1, p1, _⟩ := l
  obtain ⟨c2, p2, _⟩ := m
  simp only at h1 h2
  subst h1 h2
  rfl

theorem first_same {i j : SgxTcbInfoOnChain} {t : TcbVersionStatus} {st : SgxStatus} (h : SameVersions i j) (hf : FirstDominated i t st) :
    ∃ st', FirstDominated j t st' := by
  obtain ⟨before, l, after, hl, h1, h2, _⟩ := hf
  unfold SameVersions at h
  rw [hl, List.map_append, List.map_cons] at h
  obtain ⟨b', r', hj, hb, hr⟩ := List.map_eq_append_iff.mp h.symm
  obtain ⟨m, a', rfl, hm, _⟩ := List.map_eq_cons_iff.mp hr
  have htab : ∀ x : TcbStatus, ∃ y, (x, y) ∈ statusTable := by intro x; cases x <;> simp [statusTable]
  obtain ⟨st', hst⟩ := htab m.tcbStatus
  refine ⟨st', b', m, a', hj, (dominated_same hm).mpr h1, fun x hx hd => ?_, hst⟩
  have : (x.cpusvn, x.pcesvn) ∈ before.map (fun l => (l.cpusvn, l.pcesvn)) := by
    rw [← hb]; exact List.mem_map_of_mem hx
  obtain ⟨y, hy, e⟩ := List.mem_map.mp this
  exact h2 y hy ((dominated_same e).mpr hd)

/-- C71: neither the status values nor the dates of the stored collateral make a difference to who can register. -/
theorem C71_sharp (c : Cfg) (s t s' : Chain) (o : Origin) (proof : Bytes) (url : Option Bytes) (m : SgxAttestationMethod)
    (h : exec c s (.ext o (.registerSgxEnclave proof url m)) = .ok s') (hnow : t.now = s.now)
    (hflags : t.tx.allowDebug = s.tx.allowDebug ∧ t.tx.allowSkip = s.tx.allowSkip)
    (hqe : ∃ i n, t.tx.qe = { s.tx.qe with issueDate := i, nextUpdate := n })
    (htcb : ∀ f info, s.tx.tcb f = some info → ∃ info', t.tx.tcb f = some info' ∧ SameVersions info info') :
    ∃ t', exec c t (.ext o (.registerSgxEnclave proof url m)) = .ok t' := by
  obtain ⟨a, e, h1, h2, h3, h4, h5, h6, h7, h8⟩ := register_iff.mp h
  obtain ⟨i, n, hqe⟩ := hqe
  have hatt : ∃ st, Attested c t a proof { e with status := st } := by
    unfold Attested at h6 ⊢
    simp only
    cases hm : e.method with
    | ias =>
      simp only [hm] at h6 ⊢
      obtain ⟨r, k1, k2, k3, k4, k5⟩ := h6
      exact ⟨e.status, r, k1, k2, k3, by rw [hnow]; exact k4, by rw [hnow]; exact k5⟩
    | dcap p =>
      simp only [hm] at h6 ⊢
      obtain ⟨f, v, r, info, k1, k2, k3, k4⟩ := h6
      obtain ⟨info', l1, l2⟩ := htcb f info k3
      obtain ⟨st, l3⟩ := first_same l2 k4
      refine ⟨st, f, v, r, info', ?_, k2, l1, l3⟩
      rw [hnow, hqe]
      exact { k1 with qeMatches := ⟨k1.qeMatches.prodId, k1.qeMatches.signer, k1.qeMatches.misc, k1.qeMatches.flags, k1.qeMatches.svn⟩ }
    | skip p =>
      simp only [hm] at h6 ⊢
      obtain ⟨k1, k2, k3, k4, k5, k6, k7, k8⟩ := h6
      exact ⟨e.status, by rw [hflags.2]; exact k1, k2, k3, k4, k5, by rw [hnow]; exact k6, k7, k8⟩
  obtain ⟨st, hatt⟩ := hatt
  rcases h8 with ⟨g1, g2, _⟩ | ⟨g1, _⟩
  · exact ⟨_, register_iff.mpr ⟨a, { e with status := st }, h1, h2, h3, h4, h5, hatt, by rw [hflags.1]; exact h7, .inl ⟨g1, g2, rfl⟩⟩⟩
  · exact ⟨_, register_iff.mpr ⟨a, { e with status := st }, h1, h2, h3, h4, h5, hatt, by rw [hflags.1]; exact h7, .inr ⟨g1, rfl⟩⟩⟩

/-- Alice can register with levels that are all revoked and with dates long past just as with the real ones. -/
example : ∃ s' t', exec okCfg (run okCfg start [regTcb 3, regQe 3])
      (.ext (.signed alice) (.registerSgxEnclave (quote 0 alice.val) none (.dcap false))) = .ok s' ∧
    exec okCfg { run okCfg start [regTcb 3, regQe 3] with tx := { (run okCfg start [regTcb 3, regQe 3]).tx with
        tcb := fun f => ((run okCfg start [regTcb 3, regQe 3]).tx.tcb f).map fun info =>
          ⟨0, 0, info.tcbLevels.map fun l => { l with tcbStatus := .revoked }⟩ } }
      (.ext (.signed alice) (.registerSgxEnclave (quote 0 alice.val) none (.dcap false))) = .ok t' := by
  have h : exec okCfg (run okCfg start [regTcb 3, regQe 3])
    (.ext (.signed alice) (.registerSgxEnclave (quote 0 alice.val) none (.dcap false))) = .ok _ := exec_ok_of_isOk (by decide +kernel)
  obtain ⟨t', ht⟩ := C71_sharp okCfg _ { run okCfg start [regTcb 3, regQe 3] with tx := { (run okCfg start [regTcb 3, regQe 3]).tx with
      tcb := fun f => ((run okCfg start [regTcb 3, regQe 3]).tx.tcb f).map fun info =>
        ⟨0, 0, info.tcbLevels.map fun l => { l with tcbStatus := .revoked }⟩ } } _ _ _ _ _ h rfl ⟨rfl, rfl⟩
    ⟨_, _, rfl⟩ (fun f info hf => ⟨⟨0, 0, info.tcbLevels.map fun l => { l with tcbStatus := .revoked }⟩,
      by simp only [hf, Option.map_some], by simp [SameVersions]⟩)
  exact ⟨_, t', h, ht⟩

/-- C23: an enclave that can register with some collateral can register with the same collateral whatever its dates are. -/
theorem C23_sharp (c : Cfg) (s s' : Chain) (o : Origin) (proof : Bytes) (url : Option Bytes) (m : SgxAttestationMethod) (i n j k : Nat)
    (h : exec c s (.ext o (.registerSgxEnclave proof url m)) = .ok s') :
    ∃ t', exec c { s with tx := { s.tx with
        qe := { s.tx.qe with issueDate := i, nextUpdate := n }
        tcb := fun f => (s.tx.tcb f).map fun info => { info with issueDate := j, nextUpdate := k } } }
      (.ext o (.registerSgxEnclave proof url m)) = .ok t' :=
  C71_sharp c s _ s' o proof url m h rfl ⟨rfl, rfl⟩ ⟨i, n, rfl⟩ fun f info hf =>
    ⟨{ info with issueDate := j, nextUpdate := k }, by simp [hf], rfl⟩

example : ∃ s', exec okCfg (run okCfg start [regTcb 3, regQe 3])
    (.ext (.signed alice) (.registerSgxEnclave (quote 0 alice.val) none (.dcap false))) = .ok s' :=
  ⟨_, exec_ok_of_isOk (by decide +kernel)⟩

/-- C24: collateral that is signed and valid now replaces whatever is stored, however new that is. -/
theorem C24_sharp (c : Cfg) (s : Chain) (a : AccountId) (data sig chain : Bytes) (hnow : s.now < 2 ^ 63) :
    (∀ f info, SignedTcbInfo c s.now data sig chain f info →
      ∃ s', exec c s (.ext (.signed a) (.registerTcbInfo data sig chain)) = .ok s' ∧ s'.tx.tcb f = some info) ∧
    (∀ q, SignedIdentity c s.now data sig chain q →
      ∃ s', exec c s (.ext (.signed a) (.registerQuotingEnclave data sig chain)) = .ok s' ∧ s'.tx.qe = q) := by
  constructor
  · intro f info h
    exact ⟨_, Teerex.registerTcbInfo_ok.mpr ⟨a, f, info, rfl, signedTcbInfo_iff.mpr ⟨hnow, h⟩, rfl⟩, by simp [upd]⟩
  · intro q h
    exact ⟨_, Teerex.registerQuotingEnclave_ok.mpr ⟨a, q, rfl, signedIdentity_iff.mpr ⟨hnow, h⟩, rfl⟩, rfl⟩

/-- Collateral of date 3 is signed and valid in the state in which collateral of date 4 is stored. -/
example : ((run okCfg start [regTcb 4]).tx.tcb demoFmspc).map (·.issueDate) = some 4 ∧ (run okCfg start [regTcb 4]).now < 2 ^ 63 ∧
    ∃ f info, SignedTcbInfo okCfg (run okCfg start [regTcb 4]).now (bytes 3 1) (bytes 64 1) pem f info := by
  refine ⟨by decide +kernel, by decide +kernel, ?_⟩
  have h : exec okCfg (run okCfg start [regTcb 4]) (regTcb 3) = .ok _ := exec_ok_of_isOk (by decide +kernel)
  obtain ⟨_, f, info, _, h1, _⟩ := Teerex.registerTcbInfo_ok.mp h
  exact ⟨f, info, (signedTcbInfo_iff.mp h1).2⟩

/-- C72: a quote that was accepted once is accepted at any later time, with the same collateral, as long as its certificates are
valid; there is no other way in which it gets old. -/
theorem C72_sharp (c : Cfg) (s t s' : Chain) (o : Origin) (proof : Bytes) (url : Option Bytes) (p : Bool)
    (h : exec c s (.ext o (.registerSgxEnclave proof url (.dcap p))) = .ok s') (hqe : t.tx.qe = s.tx.qe) (htcb : t.tx.tcb = s.tx.tcb)
    (hdb : t.tx.allowDebug = s.tx.allowDebug)
    (hval : ∀ leaf inter, c.ext.dcapChainValid leaf inter (s.now / 1000) = true → c.ext.dcapChainValid leaf inter (t.now / 1000) = true) :
    ∃ t', exec c t (.ext o (.registerSgxEnclave proof url (.dcap p))) = .ok t' := by
  obtain ⟨a, e, h1, h2, h3, h4, h5, h6, h7, h8⟩ := register_iff.mp h
  have hatt : Attested c t a proof { e with timestamp := t.now } := by
    unfold Attested at h6 ⊢
    simp only [h4] at h6 ⊢
    obtain ⟨f, v, r, info, k1, k2, k3, k4⟩ := h6
    refine ⟨f, v, { r with timestamp := t.now }, info, ?_, ?_, by rw [htcb]; exact k3, k4⟩
    · obtain ⟨leaf, i, inter, sig, l1, l2, l3, l4⟩ := k1.leaf
      rw [hqe]
      exact { k1 with timestamp := rfl, leaf := ⟨leaf, i, inter, sig, l1, l2, hval _ _ l3, l4⟩ }
    · obtain ⟨m1, m2, m3, m4, m5⟩ := k2
      exact ⟨m1, m2, m3, rfl, m5⟩
  rcases h8 with ⟨g1, g2, _⟩ | ⟨g1, _⟩
  · exact ⟨_, register_iff.mpr ⟨a, { e with timestamp := t.now }, h1, h2, h3, h4, h5, hatt, by rw [hdb]; exact h7, .inl ⟨g1, g2, rfl⟩⟩⟩
  · exact ⟨_, register_iff.mpr ⟨a, { e with timestamp := t.now }, h1, h2, h3, h4, h5, hatt, by rw [hdb]; exact h7, .inr ⟨g1, rfl⟩⟩⟩

/-- Alice's quote, two days later. -/
example : ∃ s' t', exec okCfg (run okCfg start [regTcb 3, regQe 3])
      (.ext (.signed alice) (.registerSgxEnclave (quote 0 alice.val) none (.dcap false))) = .ok s' ∧
    exec okCfg (run okCfg start [regTcb 3, regQe 3, .newBlock 172801000])
      (.ext (.signed alice) (.registerSgxEnclave (quote 0 alice.val) none (.dcap false))) = .ok t' := by
  have h : exec okCfg (run okCfg start [regTcb 3, regQe 3])
    (.ext (.signed alice) (.registerSgxEnclave (quote 0 alice.val) none (.dcap false))) = .ok _ := exec_ok_of_isOk (by decide +kernel)
  obtain ⟨t', ht⟩ := C72_sharp okCfg _ (run okCfg start [regTcb 3, regQe 3, .newBlock 172801000]) _ _ _ _ _ h rfl rfl rfl
    (fun _ _ _ => rfl)
  exact ⟨_, t', h, ht⟩

/-- C93: a document with a level of status "ConfigurationNeeded" is always refused, whatever other members it has. -/
theorem C93_sharp (c : Cfg) (s s' : Chain) (o : Origin) (data sig chain : Bytes) (j : Json) (doc : TcbInfoDoc)
    (ha : ∀ x ∈ doc.fmspc, x < 128) (hj : c.ext.json data = some j) (hd : Describes j doc.json)
    (hl : ∃ l ∈ doc.levels, l.status = "ConfigurationNeeded") :
    exec c s (.ext o (.registerTcbInfo data sig chain)) ≠ .ok s' := by
  intro h
  obtain ⟨f, info, _, _, _, _, hlen, hk⟩ := C94_published c s s' o data sig chain j doc ha hj hd h
  obtain ⟨l, hl, hst⟩ := hl
  obtain ⟨k, hk', rfl⟩ := List.mem_iff_getElem.mp hl
  have := (hk k (by omega) hk').2.2
  rw [hst] at this
  generalize info.tcbLevels[k].tcbStatus = ts at this
  revert this
  cases ts <;> decide +kernel

example : (∀ x ∈ (oneLevel "ConfigurationNeeded").fmspc, x < 128) ∧
    (docCfg "ConfigurationNeeded").ext.json [1] = some (oneLevel "ConfigurationNeeded").json ∧
    Describes (oneLevel "ConfigurationNeeded").json (oneLevel "ConfigurationNeeded").json ∧
    ∃ l ∈ (oneLevel "ConfigurationNeeded").levels, l.status = "ConfigurationNeeded" :=
  ⟨by decide +kernel, rfl, ⟨_, .refl _, without_doc _⟩, by decide +kernel⟩

/-- C70: when a certificate was valid makes no difference to any call, but for one second in November 2019. -/
theorem C70_sharp (c : Cfg) (s s' : Chain) (o : Origin) (proof : Bytes) (url : Option Bytes) (valid : Bytes → Nat → Bool)
    (hv : ∀ cert, valid cert 1573419050 = c.ext.iasCertValid cert 1573419050)
    (h : exec c s (.ext o (.registerSgxEnclave proof url .ias)) = .ok s') :
    exec { c with ext := { c.ext with iasCertValid := valid } } s (.ext o (.registerSgxEnclave proof url .ias)) = .ok s' := by
  obtain ⟨a, e, h1, h2, h3, h4, h5, h6, h7, h8⟩ := register_iff.mp h
  refine register_iff.mpr ⟨a, e, h1, h2, h3, h4, h5, ?_, h7, h8⟩
  unfold Attested at h6 ⊢
  simp only [h4] at h6 ⊢
  obtain ⟨r, ⟨report, sig, cert, js, ts, secs, st, body, quote, k1, k2, k3, k4, k5⟩, h⟩ := h6
  exact ⟨r, ⟨report, sig, cert, js, ts, secs, st, body, quote, k1, k2, k3, (hv cert).trans k4, k5⟩, h⟩

/-- A certificate that expired at that second. -/
example : (exec okCfg start (.ext (.signed alice) (.registerSgxEnclave iasProof none .ias))).isOk = true ∧
    ∀ cert : Bytes, (fun (_ : Bytes) (t : Nat) => decide (t ≤ 1573419050)) cert 1573419050 = okCfg.ext.iasCertValid cert 1573419050 :=
  ⟨by decide +kernel, fun _ => rfl⟩

/-- C100: withdrawing permissions makes every entry that needs them stay without them, in every state. -/
theorem C100_sharp (c : Cfg) (s : Chain) : ∃ s', exec c s (.ext .root (.setSecurityFlags false false)) = .ok s' ∧
    s'.tx.sovereign = s.tx.sovereign ∧ s'.tx.proxied = s.tx.proxied ∧
    ∀ e : SgxEnclave, (∃ p, e.method = .skip p) ∨ e.buildMode = .debug → Unpermitted s' e := by
  refine ⟨_, rfl, rfl, rfl, fun e h => ?_⟩
  rcases h with ⟨p, h⟩ | h
  · exact .inl ⟨⟨p, h⟩, rfl⟩
  · exact .inr ⟨h, rfl⟩

example : ((run cfg start [enroll alice 7]).tx.sovereign alice).map (·.method) = some (.skip false) := by decide +kernel

/-! ### enclave-bridge -/

/-- C79: every registered enclave can make the first configuration of every shard that has none. -/
theorem C79_sharp (c : Cfg) (s0 : Chain) (ops : List Op) (h0 : FreshBridge s0) (a : AccountId) (e : SgxEnclave) (shard : ShardId)
    (cfg : ShardConfig) (delay : Nat) (he : (run c s0 ops).tx.sovereign a = some e) (hc : (run c s0 ops).br.config shard = none)
    (hpl : HasPlace (run c s0 ops) shard a) :
    ∃ s', exec c (run c s0 ops) (.ext (.signed a) (.updateShardConfig shard cfg delay)) = .ok s' ∧
      s'.br.config shard = some ⟨cfg, none, none⟩ := by
  have hs := statusOk_run (c := c) (statusOk_fresh h0) ops
  generalize run c s0 ops = s at *
  have hn : configInEffect s shard s.block = none := by simp [configInEffect, hc]
  refine ⟨_, updateShardConfig_ok.mpr (.inr ⟨a, e, _, rfl, he, by simp [hn], rfl, (touched_fits hs ..).mpr hpl, rfl⟩), ?_⟩
  simp [upd, newConfig, hn]

/-- Carol, with an enclave of code 9, configures shard 7. -/
example : FreshBridge start ∧ ((run cfg start [enroll carol 9]).tx.sovereign carol).isSome = true ∧
    (run cfg start [enroll carol 9]).br.config shard7 = none ∧ HasPlace (run cfg start [enroll carol 9]) shard7 carol :=
  ⟨⟨fun _ => rfl, fun _ => rfl, fun _ => rfl⟩, by decide +kernel, by decide +kernel, .inr (by decide +kernel)⟩

/-- C34: in every state of every history, everybody who has registered any enclave can take the money of every account that is
not configured as a shard, with two calls. -/
theorem C34_sharp (c : Cfg) (s0 : Chain) (ops : List Op) (h0 : FreshBridge s0) (thief victim ben : AccountId) (e : SgxEnclave)
    (amount : Nat) (hash : H256) (he : (run c s0 ops).tx.sovereign thief = some e) (hc : (run c s0 ops).br.config victim = none)
    (hpl : HasPlace (run c s0 ops) victim thief) (hh : (run c s0 ops).br.executed hash = none)
    (hpay : CanPay c (run c s0 ops) victim ben amount) (hne : victim ≠ ben) (ha : amount ≠ 0) :
    ∃ s1 s2, exec c (run c s0 ops) (.ext (.signed thief) (.updateShardConfig victim ⟨e.mrEnclave, none, none, false⟩ 0)) = .ok s1 ∧
      exec c s1 (.ext (.signed thief) (.unshieldFunds victim ben amount hash)) = .ok s2 ∧
      Moved c.ed (run c s0 ops).bal s2.bal victim ben amount := by
  have hs := statusOk_run (c := c) (statusOk_fresh h0) ops
  obtain ⟨s1, h1, hc1⟩ := C79_sharp c s0 ops h0 thief e victim ⟨e.mrEnclave, none, none, false⟩ 0 he hc hpl
  have hs1 : StatusOk s1 := by
    have h2 := statusOk_run (c := c) (statusOk_fresh h0)
      (ops ++ [.ext (.signed thief) (.updateShardConfig victim ⟨e.mrEnclave, none, none, false⟩ 0)])
    rwa [run_snoc, step_of_ok h1] at h2
  generalize run c s0 ops = s at *
  have hrest : s1.tx = s.tx ∧ s1.bal = s.bal ∧ s1.br.executed = s.br.executed ∧ thief ∈ (statusOf s1 victim).map (·.signer) := by
    rcases updateShardConfig_ok.mp h1 with ⟨hb, _⟩ | ⟨b, e', l, hb, k1, _, hl, _, rfl⟩
    · cases hb
    · cases hb
      refine ⟨rfl, rfl, rfl, ?_⟩
      simp only [statusOf, upd_same, Option.getD_some, hl]
      rw [show touched s victim thief e'.fingerprint s.block = touchedList (statusOf s victim) ⟨thief, e'.fingerprint, s.block⟩
        from touchList_eq (hs victim).2.1]
      exact List.mem_map.mpr ⟨_, new_mem_touchedList _ _, rfl⟩
  obtain ⟨r1, r2, r3, r4⟩ := hrest
  have hacc : Accepts c s1 (.signed thief) (.unshieldFunds victim ben amount hash) := by
    refine ⟨thief, ⟨rfl, ⟨e, by rw [r1]; exact he, ?_⟩, .inl r4⟩, ?_⟩
    · simp [fingerprintInEffect, configInEffect, hc1, UpgradableShardConfig.inEffect]
    · rw [r3, hh]
      unfold CanPay at hpay ⊢
      rw [r2]
      exact hpay
  obtain ⟨s2, h2⟩ := (accepts_iff hs1 _ _).mpr hacc
  refine ⟨s1, s2, h1, h2, ?_⟩
  rcases (C33_unshield_exact c s1 s2 _ victim ben amount hash h2).1 (by rw [r3]; exact hh) with ⟨h | h, _⟩ | h
  · exact absurd h ha
  · exact absurd h hne
  · rwa [r2] at h

/-- Carol takes 900 of Alice's 1000. -/
example : ∃ s2 : Chain, Moved cfg.ed (run cfg start [enroll carol 9]).bal s2.bal alice carol 900 := by
  have hs : ((run cfg start [enroll carol 9]).tx.sovereign carol).isSome = true := by decide +kernel
  obtain ⟨e, he⟩ := Option.isSome_iff_exists.mp hs
  obtain ⟨_, s2, _, _, h⟩ := C34_sharp cfg start [enroll carol 9] ⟨fun _ => rfl, fun _ => rfl, fun _ => rfl⟩ carol alice carol e 900
    hash1 he (by decide +kernel) (.inr (by decide +kernel)) (by decide +kernel)
    (.inr (.inr ⟨by decide +kernel, fun id h => absurd (show (run cfg start [enroll carol 9]).bal.lock id alice = 0 by
      cases id <;> decide +kernel) h, by decide +kernel, by decide +kernel⟩)) (by decide +kernel) (by decide)
  exact ⟨s2, h⟩

/-- The same state, but for the flag for maintenance mode in all shard configurations. -/
def withMaintenance (on : ShardId → Bool) (s : Chain) : Chain :=
  { s with br := { s.br with config := fun shard => (s.br.config shard).map fun u =>
    { u with active := { u.active with maintenance := on shard }, pending := u.pending.map fun p => { p with maintenance := on shard } } } }

/-- C38: the flag makes no difference to any call. -/
theorem C38_sharp (c : Cfg) (s0 : Chain) (ops : List Op) (h0 : FreshBridge s0) (on : ShardId → Bool) (o : Origin) (k : Call) :
    (∃ s', exec c (withMaintenance on (run c s0 ops)) (.ext o k) = .ok s') ↔ ∃ s', exec c (run c s0 ops) (.ext o k) = .ok s' := by
  have hs := statusOk_run (c := c) (statusOk_fresh h0) ops
  generalize run c s0 ops = s at *
  have hs' : StatusOk (withMaintenance on s) := hs
  rw [accepts_iff hs', accepts_iff hs]
  have hfp : ∀ shard, fingerprintInEffect (withMaintenance on s) shard s.block = fingerprintInEffect s shard s.block := by
    intro shard
    simp only [fingerprintInEffect, configInEffect, withMaintenance]
    cases s.br.config shard with
    | none => rfl
    | some u =>
      obtain ⟨act, pend, up⟩ := u
      cases pend <;> cases up <;> simp only [Option.map_some, Option.map_none, UpgradableShardConfig.inEffect]
      split <;> rfl
  have hold : ∀ shard (e : SgxEnclave), (∀ old, configInEffect (withMaintenance on s) shard s.block = some old → e.mrEnclave = old.fingerprint) ↔
      ∀ old, configInEffect s shard s.block = some old → e.mrEnclave = old.fingerprint := by
    intro shard e
    simp only [configInEffect, withMaintenance]
    cases s.br.config shard with
    | none => simp
    | some u =>
      obtain ⟨act, pend, up⟩ := u
      cases pend <;> cases up <;> simp [UpgradableShardConfig.inEffect]
      split <;> simp
  have hmay : ∀ shard a, MayAct (withMaintenance on s) o shard a ↔ MayAct s o shard a := by
    intro shard a
    unfold MayAct RightEnclave
    rw [show (withMaintenance on s).block = s.block from rfl, hfp]
    rfl
  cases k with
  | confirmProcessedParentchainBlock => simp only [Accepts, hmay]
  | unshieldFunds => simp only [Accepts, hmay]; rfl
  | confirmImportedSidechainBlock => simp only [Accepts, hmay]; rfl
  | updateShardConfig shard =>
    simp only [Accepts]
    rw [show (withMaintenance on s).block = s.block from rfl]
    simp only [hold]
    rfl
  | claims k => cases k <;> rfl
  | _ => rfl

/-- Alice can unshield in maintenance mode, as without it. -/
example : FreshBridge start ∧ (exec cfg (withMaintenance (fun _ => true) (run cfg start
      [enroll alice 7, shield bob 100, .ext .root (.updateShardConfig shard7 (config 7) 0)]))
    (unshield alice carol 60 hash1)).isOk = true :=
  ⟨⟨fun _ => rfl, fun _ => rfl, fun _ => rfl⟩, by decide +kernel⟩

/-- C74: a call hash that was used, on whatever shard, pays nothing on any shard. -/
theorem C74_sharp (c : Cfg) (s s' : Chain) (o : Origin) (shard : ShardId) (ben : AccountId) (amount : Nat) (hash : H256)
    (hx : s.br.executed hash ≠ none) (h : exec c s (.ext o (.unshieldFunds shard ben amount hash)) = .ok s') : s'.bal = s.bal :=
  (C33_unshield_exact c s s' o shard ben amount hash h).2 hx

/-- Bob's enclave of shard 8 uses the hash that Alice's enclave of shard 7 has used. -/
example : ∃ s', exec cfg (run cfg start [enroll alice 7, enroll bob 8, shield bob 100,
      .ext (.signed bob) (.shieldFunds (Arr.fill 32 8) [] 100), unshield alice carol 20 hash1])
      (.ext (.signed bob) (.unshieldFunds (Arr.fill 32 8) carol 30 hash1)) = .ok s' ∧
    (run cfg start [enroll alice 7, enroll bob 8, shield bob 100,
      .ext (.signed bob) (.shieldFunds (Arr.fill 32 8) [] 100), unshield alice carol 20 hash1]).br.executed hash1 ≠ none :=
  ⟨_, exec_ok_of_isOk (by decide +kernel), by decide +kernel⟩

/-- C78: an enclave of the shard can act exactly if it is listed or fewer than ten signers are. -/
theorem C78_sharp (c : Cfg) (s0 : Chain) (ops : List Op) (h0 : FreshBridge s0) (a : AccountId)
    (shard : ShardId) (bh root : H256) (bn : Nat) (hr : RightEnclave (run c s0 ops) shard a) :
    (∃ s', exec c (run c s0 ops) (.ext (.signed a) (.confirmProcessedParentchainBlock shard bh bn root)) = .ok s') ↔
      a ∈ (statusOf (run c s0 ops) shard).map (·.signer) ∨ (statusOf (run c s0 ops) shard).length < 10 := by
  rw [C105_exactly_when c s0 ops h0]
  constructor
  · rintro ⟨b, hb, _, hp⟩; cases hb; exact hp
  · exact fun hp => ⟨a, rfl, hr, hp⟩

/-- The eleventh enclave of shard 7 is right, but not listed. -/
example : RightEnclave (run cfg start crowd) shard7 (Arr.fill 32 30) ∧
    Arr.fill 32 30 ∉ (statusOf (run cfg start crowd) shard7).map (·.signer) ∧ (statusOf (run cfg start crowd) shard7).length = 10 := by
  refine ⟨?_, by decide +kernel, by decide +kernel⟩
  have : ((run cfg start crowd).tx.sovereign (Arr.fill 32 30)).map (·.mrEnclave) =
      some (fingerprintInEffect (run cfg start crowd) shard7 (run cfg start crowd).block) := by decide +kernel
  rw [Option.map_eq_some_iff] at this
  exact this

/-- C101: the age of attestations makes no difference to any call that only enclaves may make. -/
theorem C101_sharp (c : Cfg) (s0 : Chain) (ops : List Op) (h0 : FreshBridge s0) (now : Nat) (o : Origin) (k : Call)
    (hk : k.enclaveOnly = true) :
    (∃ s', exec c { run c s0 ops with now := now } (.ext o k) = .ok s') ↔ ∃ s', exec c (run c s0 ops) (.ext o k) = .ok s' := by
  have hs := statusOk_run (c := c) (statusOk_fresh h0) ops
  generalize run c s0 ops = s at *
  have hs' : StatusOk { s with now := now } := hs
  rw [accepts_iff hs', accepts_iff hs]
  cases k <;> first | rfl | simp [Call.enclaveOnly] at hk

/-- Alice's enclave confirms a block a century after its attestation. -/
example : (Call.confirmProcessedParentchainBlock shard7 hash1 1 hash2).enclaveOnly = true ∧
    (exec cfg { run cfg start [enroll alice 7] with now := 3155760000000 }
      (.ext (.signed alice) (.confirmProcessedParentchainBlock shard7 hash1 1 hash2))).isOk = true :=
  ⟨rfl, by decide +kernel⟩

/-- C104: shards make no difference to shielding: it succeeds exactly if the sender can pay. -/
theorem C104_sharp (c : Cfg) (s : Chain) (a : AccountId) (shard : ShardId) (inc : Bytes) (amount : Nat) :
    (∃ s', exec c s (.ext (.signed a) (.shieldFunds shard inc amount)) = .ok s') ↔ CanPay c s a shard amount := by
  rw [← transfer_some]
  constructor
  · rintro ⟨s', h⟩
    obtain ⟨b, bal, hb, h1, _⟩ := shieldFunds_ok.mp h
    cases hb
    exact ⟨bal, h1⟩
  · rintro ⟨bal, h1⟩
    exact ⟨_, shieldFunds_ok.mpr ⟨a, bal, rfl, h1, rfl⟩⟩

/-- Bob can shield into an id that belongs to nothing. -/
example : CanPay cfg start bob (Arr.fill 32 99) 100 ∧ ∀ a, start.tx.sovereign a = none :=
  ⟨(C104_sharp cfg start bob _ [] 100).mp ⟨_, exec_ok_of_isOk (by decide +kernel)⟩, fun _ => rfl⟩

/-! ### sidechain -/

/-- C41: while the first signer of a shard is not one of its enclaves, nobody can finalize a block. -/
theorem C41_sharp (c : Cfg) (s0 : Chain) (ops : List Op) (h0 : FreshBridge s0) (shard : ShardId) (first : AccountId)
    (hf : (statusOf (run c s0 ops) shard).head?.map (·.signer) = some first) (hr : ¬ RightEnclave (run c s0 ops) shard first)
    (op : Op) (cand : Confirmation) : ¬ Finalizes c (run c s0 ops) op shard cand := by
  rintro ⟨s', h, hfin⟩
  obtain ⟨a, _, _, _, hra, hp, _⟩ := C40_only_primary c s0 s' ops h0 op shard h (by rw [hfin]; simp)
  rcases hp with hp | hp
  · rw [hp] at hf; cases hf
  · rw [hp] at hf
    cases hf
    exact hr hra

/-- Alice was the first signer of shard 7 and has registered other code since. -/
example : (statusOf (run cfg start stalled) shard7).head?.map (·.signer) = some alice ∧
    ¬ RightEnclave (run cfg start stalled) shard7 alice := by
  refine ⟨by decide +kernel, ?_⟩
  rintro ⟨e, he, hm⟩
  have : ((run cfg start stalled).tx.sovereign alice).map (·.mrEnclave) ≠
    some (fingerprintInEffect (run cfg start stalled) shard7 (run cfg start stalled).block) := by decide +kernel
  rw [he] at this
  exact this (by simp [hm])

/-! ### claims -/

theorem without_repeats (l : List EthAddr) : ∃ l' : List EthAddr, l'.Nodup ∧ ∀ a ∈ l, a ∈ l' := by
  induction l with
  | nil => exact ⟨[], .nil, fun _ h => h⟩
  | cons x l ih =>
    obtain ⟨l', h1, h2⟩ := ih
    by_cases hx : x ∈ l'
    · refine ⟨l', h1, fun a ha => ?_⟩
      rcases List.mem_cons.mp ha with rfl | h
      · exact hx
      · exact h2 a h
    · refine ⟨x :: l', List.nodup_cons.mpr ⟨hx, h1⟩, fun a ha => ?_⟩
      rcases List.mem_cons.mp ha with rfl | h
      · exact List.mem_cons_self
      · exact List.mem_cons_of_mem _ (h2 a h)

/-- C49: the total is exact exactly if no claim of a positive amount was ever overwritten. -/
theorem C49_sharp (c : Cfg) (s0 : Chain) (ops : List Op) (h0 : Exact s0) (hev : s0.cl.events = [])
    (hf : c.overflowChecks = true ∨ Fits c s0.cl.total (accepted c s0 ops)) :
    Exact (run c s0 ops) ↔ ∀ p ∈ accepted c s0 ops, overwritten p = 0 := by
  have h0' : OpenSum s0.cl.claims s0.cl.total := by
    obtain ⟨⟨l, hl⟩, hs⟩ := h0
    obtain ⟨l', hn, hsub⟩ := without_repeats l
    exact ⟨⟨l', hn, fun a ha => hsub a (hl a ha)⟩, fun l h => hs l h.1 h.2⟩
  obtain ⟨k, ⟨⟨l, hl⟩, hs⟩, ht⟩ := C131_total c s0 ops s0.cl.total 0 h0' rfl hev hf
  have hsum0 : overwrittenIn (accepted c s0 ops) = 0 ↔ ∀ p ∈ accepted c s0 ops, overwritten p = 0 := by
    unfold overwrittenIn
    rw [List.sum_eq_zero_iff_forall_eq_nat]
    exact ⟨fun h p hp => h _ (List.mem_map_of_mem hp), fun h x hx => by obtain ⟨p, hp, rfl⟩ := List.mem_map.mp hx; exact h p hp⟩
  rw [← hsum0]
  constructor
  · rintro ⟨_, he⟩
    have h1 := he l hl.1 hl.2
    have h2 := hs l hl
    omega
  · intro h0
    exact ⟨⟨l, hl.2⟩, fun l hn hc => by have := hs l ⟨hn, hc⟩; omega⟩

/-- A claim of 100 is overwritten by one of 30. -/
example : Exact start ∧ start.cl.events = [] ∧
    Fits cfg start.cl.total (accepted cfg start [mintOp ethA 100 none none, mintOp ethA 30 none none]) ∧
    (accepted cfg start [mintOp ethA 100 none none, mintOp ethA 30 none none]).map overwritten = [0, 100] :=
  ⟨exact_nothing _ (fun _ => rfl) rfl, rfl, by unfold Fits; decide +kernel, by decide +kernel⟩

/-- C103: a signature that was redeemed can be redeemed again whenever there is a claim for the address again. -/
theorem C103_sharp (c : Cfg) (s s1 t : Chain) (op : Op) (dest : AccountId) (sig : EthSig) (g : EthAddr) (due : Nat)
    (hop : op.redeems dest sig) (h : exec c s op = .ok s1) (hg : s1.cl.events = .claimed dest g due :: s.cl.events)
    (hsign : t.cl.signing g = s.cl.signing g) (hpay : Payable c t g dest) : ∃ t', exec c t op = .ok t' := by
  rcases hop with rfl | ⟨st, rfl⟩
  · obtain ⟨g', _, h1, h2, h3⟩ := Claims.claim_ok.mp h
    obtain ⟨_, _, _, _, _, rfl⟩ := Claims.processClaim_ok.mp h3
    simp only [List.cons.injEq, and_true, ClEvent.claimed.injEq, true_and] at hg
    obtain ⟨rfl, _⟩ := hg
    obtain ⟨t', ht⟩ := processClaim_some.mpr hpay
    exact ⟨t', Claims.claim_ok.mpr ⟨g', rfl, h1, by rw [hsign]; exact h2, ht⟩⟩
  · obtain ⟨g', _, h1, h2, h3⟩ := Claims.claimAttest_ok.mp h
    obtain ⟨_, _, _, _, _, rfl⟩ := Claims.processClaim_ok.mp h3
    simp only [List.cons.injEq, and_true, ClEvent.claimed.injEq, true_and] at hg
    obtain ⟨rfl, _⟩ := hg
    obtain ⟨t', ht⟩ := processClaim_some.mpr hpay
    exact ⟨t', Claims.claimAttest_ok.mpr ⟨g', rfl, h1, by rw [hsign]; exact h2, ht⟩⟩

/-- Carol redeems a claim of 100, another one of 50 is minted for the same address, and anybody can send the signature again. -/
example : ∃ s1 t', exec cfg (run cfg start [mintOp ethA 100 none none]) (claimOp carol) = .ok s1 ∧
    exec cfg (run cfg s1 [mintOp ethA 50 none none]) (claimOp carol) = .ok t' := by
  have h : exec cfg (run cfg start [mintOp ethA 100 none none]) (claimOp carol) =
    .ok (step cfg (run cfg start [mintOp ethA 100 none none]) (claimOp carol)) := exec_ok_of_isOk (by decide +kernel)
  obtain ⟨t', ht⟩ := C103_sharp cfg _ _ (run cfg (step cfg (run cfg start [mintOp ethA 100 none none]) (claimOp carol))
    [mintOp ethA 50 none none]) (claimOp carol) carol anySig ethA 100 (.inl rfl) h (by decide +kernel) (by decide +kernel)
    ⟨⟨50, by decide +kernel, by decide +kernel⟩, fun v hv => by
      have hn : (run cfg (step cfg (run cfg start [mintOp ethA 100 none none]) (claimOp carol))
        [mintOp ethA 50 none none]).cl.vesting ethA = none := by decide +kernel
      rw [hn] at hv
      cases hv⟩
  exact ⟨_, t', h, ht⟩

/-! ### asset-registry -/

/-- C58: whenever a location is registered for a second asset, it leads to the second one, and the first one is not led back to. -/
theorem C58_sharp (c : Cfg) (s s' : Chain) (o : Origin) (id id' : AssetId) (loc : Location)
    (h : exec c s (.ext o (.registerReserveAsset id' loc)) = .ok s') (hl : s.ar.idLoc id = some loc) :
    s'.ar.idLoc id = some loc ∧ s'.ar.locId loc = some id' ∧ id ≠ id' ∧ ¬ RegistryInverse s' := by
  obtain ⟨h1, h2, h3, h4, rfl⟩ := AssetRegistry.registerReserveAsset_ok.mp h
  have hne : id ≠ id' := fun e => by rw [e, h3] at hl; cases hl
  have k1 : upd s.ar.idLoc id' (some loc) id = some loc := by simp [upd, hne, hl]
  have k2 : upd s.ar.locId loc (some id') loc = some id' := by simp [upd]
  refine ⟨k1, k2, hne, fun hinv => ?_⟩
  have k3 := (hinv id loc).mp k1
  exact hne (Option.some.inj (k3.symm.trans k2))

example : ∃ s', exec cfg (run cfg start [.setAsset 1 5, .setAsset 2 5, registerOp 1 locA]) (registerOp 2 locA) = .ok s' ∧
    (run cfg start [.setAsset 1 5, .setAsset 2 5, registerOp 1 locA]).ar.idLoc 1 = some locA :=
  ⟨_, exec_ok_of_isOk (by decide +kernel), by decide +kernel⟩

end Verif
