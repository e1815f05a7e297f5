import Verif.Spec.Events
import Verif.Props.Sidechain
import Verif.Props.Claims
import Verif.Props.Teeracle
import Verif.Props.Xcm
import Verif.Props.Accept
import Verif.Proofs.TeerdaysInv

/-!
# What the events tell: C107 - C115

An observer who reads all events (an indexer, a wallet, the enclave's light client) rebuilds the storage from them,
or provably cannot.
-/

namespace Verif

open Demo EnclaveBridge

theorem start_justStarted : JustStarted start := ⟨_, _, _, _, _, _, rfl, rfl⟩
theorem claimsStart_justStarted : JustStarted claimsStart := ⟨_, _, _, _, _, _, rfl, rfl⟩

@[simp] theorem lastWord_cons {E V : Type} (f : E → Option V) (e : E) (l : List E) :
    lastWord f (e :: l) = (f e).or (lastWord f l) := by
  simp only [lastWord, List.findSome?_cons]
  cases f e <;> rfl

@[simp] theorem bondTold_cons (ed m : Nat) (a : AccountId) (e : TdEvent) (l : List TdEvent) :
    bondTold ed m a (e :: l) = e.tell ed m a (bondTold ed m a l) := rfl

@[simp] theorem whitelistTold_cons (src : Bytes) (e : OrEvent) (l : List OrEvent) :
    whitelistTold src (e :: l) = e.tell src (whitelistTold src l) := rfl

/-! ### C107 Bonds follow from the events -/

theorem tell_other {ed m : Nat} {a : AccountId} {l : List TdEvent} :
    bondTold ed m a (l.filter fun e => e.who = a) = bondTold ed m a l ∧
    lastWord (TdEvent.pendingOf a) (l.filter fun e => e.who = a) = lastWord (TdEvent.pendingOf a) l := by
  induction l with
  | nil => exact ⟨rfl, rfl⟩
  | cons e l ih =>
    by_cases h : e.who = a
    · rw [List.filter_cons_of_pos (by simpa using h)]
      simp only [bondTold, lastWord, List.foldr_cons, List.findSome?_cons] at ih ⊢
      rw [ih.1, ih.2]; exact ⟨rfl, rfl⟩
    · rw [List.filter_cons_of_neg (by simpa using h), ih.1, ih.2, bondTold_cons, lastWord_cons]
      cases e <;> (simp only [TdEvent.who] at h; simp [TdEvent.tell, TdEvent.pendingOf, h])

/-- C107: value and tokentime of every bond, and the amount waiting to be withdrawn, are what the events tell. -/
theorem C107_bonds_told (c : Cfg) (s0 : Chain) (ops : List Op) (h0 : JustStarted s0) (a : AccountId) :
    ((run c s0 ops).td.bonds a).map (fun b => (b.value, b.tokentime)) =
      bondTold c.ed c.balMax a (run c s0 ops).td.events ∧
    ((run c s0 ops).td.pending a).map (·.2) =
      (lastWord (TdEvent.pendingOf a) (run c s0 ops).td.events).join := by
  rw [← (tell_other (ed := c.ed) (m := c.balMax)).1, ← (tell_other (ed := c.ed) (m := c.balMax)).2]
  refine run_invariant (c := c) (P := fun s =>
    (s.td.bonds a).map (fun b => (b.value, b.tokentime)) =
      bondTold c.ed c.balMax a (s.td.events.filter fun e => e.who = a) ∧
    (s.td.pending a).map (·.2) =
      (lastWord (TdEvent.pendingOf a) (s.td.events.filter fun e => e.who = a)).join) ?_ ?_ ops
  · rintro s s' op ⟨ih1, ih2⟩ hx
    have hb' : s'.td.bonds a = (tdView s' a).bond := rfl
    have hp' : s'.td.pending a = (tdView s' a).pending := rfl
    have he' : (s'.td.events.filter fun e => e.who = a) = (tdView s' a).events := rfl
    have he : (tdView s a).events = (s.td.events.filter fun e => e.who = a) := rfl
    rw [hb', hp', he']
    cases tdEffect hx a with
    | same h hv => rw [hv]; exact ⟨ih1, ih2⟩
    | updated hn hb hv =>
      rw [hv]
      have hpv : (tdView s a).pending = s.td.pending a := rfl
      exact ⟨by simp [TdEvent.tell], by simpa [TdEvent.pendingOf, he, hpv] using ih2⟩
    | bond hn hf hb hed hv =>
      rw [hv, he]
      rw [hb] at ih1
      simp only [Option.map_none] at ih1
      refine ⟨?_, by simpa [TdEvent.pendingOf] using ih2⟩
      simp only [bondTold_cons, TdEvent.tell, if_true]
      rw [← ih1]; rfl
    | @extra v new b hn hf hb hp hed hnew hv =>
      rw [hv, he]
      rw [hp] at ih2
      subst hnew
      refine ⟨?_, by simpa [TdEvent.pendingOf] using ih2⟩
      simp only [Option.map_some, bondTold_cons, TdEvent.tell, if_true]
      rfl
    | @unbond v due left b hn hf hb hp hed hd hleft hv =>
      rw [hv, he]
      have hle := leftTokentime_le c.balMax (b.update c.balMax s.now) (new := b.value - v) (Nat.sub_le _ _)
      rw [← hleft] at hle
      refine ⟨?_, by simp [TdEvent.pendingOf]⟩
      have e1 : b.value - (b.value - (b.value - v)) = b.value - v := by omega
      have e2 : (b.update c.balMax s.now).tokentime - ((b.update c.balMax s.now).tokentime - left) = left := by omega
      have e3 : (b.update c.balMax s.now).value = b.value := rfl
      simp only [bondTold_cons, TdEvent.tell, if_true, e3, e1, e2]
      split <;> rfl
    | withdraw hn hf hp hd hv =>
      rw [hv, he]
      exact ⟨by simpa [TdEvent.tell] using ih1, by simp [TdEvent.pendingOf]⟩
  · obtain ⟨_, _, _, _, _, _, rfl, _⟩ := h0
    exact ⟨rfl, rfl⟩

/-- A history with a bond, an addition, a partial exit. -/
def bondStory : List Op :=
  [.ext (.signed alice) (.bond 300), .newBlock 10, .ext (.signed alice) (.bondExtra 100), .newBlock 10,
   .ext (.signed bob) (.updateOther alice), .ext (.signed alice) (.unbond 200)]

example : JustStarted start ∧
    bondTold cfg.ed cfg.balMax alice (run cfg start bondStory).td.events = some (200, 3400) ∧
    (lastWord (TdEvent.pendingOf alice) (run cfg start bondStory).td.events).join = some 200 :=
  ⟨start_justStarted, by decide +kernel, by decide +kernel⟩

/-! ### C108 The enclave registry follows from the events -/

/-- C108, full claim: the registry is a function of the events. -/
def C108_Full : Prop :=
  ∃ f : List TxEvent → AccountId → Option SgxEnclave, ∀ (c : Cfg) (s0 : Chain) (ops : List Op), JustStarted s0 →
    (run c s0 ops).tx.sovereign = f (run c s0 ops).tx.events

/-- The events do not name the measurement: registering code 7 looks the same as registering code 8. -/
theorem C108_refuted : ¬ C108_Full := by
  rintro ⟨f, hf⟩
  have h1 := hf cfg start [enroll alice 7] start_justStarted
  have h2 := hf cfg start [enroll alice 8] start_justStarted
  have he : (run cfg start [enroll alice 7]).tx.events = (run cfg start [enroll alice 8]).tx.events := by
    decide +kernel
  rw [he, ← h2] at h1
  have := congrFun h1 alice
  revert this
  decide +kernel

/-- C108: the events tell which accounts have a sovereign enclave, with its url, status and attestation method.
Missing for the full claim: measurement, signer, time and report data are not in the events. -/
theorem C108_registered_partial (c : Cfg) (s0 : Chain) (ops : List Op) (h0 : JustStarted s0) (a : AccountId) :
    ((run c s0 ops).tx.sovereign a).map (fun e => (e.url, e.status, e.method)) =
      (lastWord (TxEvent.sovereignOf a) (run c s0 ops).tx.events).join := by
  refine run_invariant (c := c) (P := fun s =>
    (s.tx.sovereign a).map (fun e => (e.url, e.status, e.method)) =
      (lastWord (TxEvent.sovereignOf a) s.tx.events).join) ?_ ?_ ops
  · intro s s' op ih hx
    by_cases hp : Part.teerex ∈ op.parts
    · cases op with
      | ext o k =>
        cases k with
        | registerSgxEnclave proof url m =>
          obtain ⟨b, e, rfl, h1, h2, h3, h4, h5, h6, (⟨h7, h8, rfl⟩ | ⟨h7, rfl⟩)⟩ := register_iff.mp hx
          · have hm : m.isProxied = false := by rw [← h3, isProxied_eq, h7]
            by_cases hab : b = a
            · subst hab
              simp [TxEvent.sovereignOf, hm, h3, h4]
            · simpa [TxEvent.sovereignOf, hab, Ne.symm hab] using ih
          · have hm : m.isProxied = true := by rw [← h3, isProxied_eq, h7]
            simpa [TxEvent.sovereignOf, hm] using ih
        | unregisterSovereignEnclave x =>
          obtain ⟨b, e, rfl, h1, h2, rfl⟩ := Teerex.unregisterSovereignEnclave_ok.mp hx
          by_cases hab : x = a
          · subst hab; simp [TxEvent.sovereignOf]
          · simpa [TxEvent.sovereignOf, hab, Ne.symm hab] using ih
        | unregisterProxiedEnclave x =>
          obtain ⟨b, e, rfl, h1, h2, rfl⟩ := Teerex.unregisterProxiedEnclave_ok.mp hx
          simpa [TxEvent.sovereignOf] using ih
        | registerQuotingEnclave =>
          obtain ⟨_, _, _, _, rfl⟩ := Teerex.registerQuotingEnclave_ok.mp hx
          simpa [TxEvent.sovereignOf] using ih
        | registerTcbInfo =>
          obtain ⟨_, _, _, _, _, rfl⟩ := Teerex.registerTcbInfo_ok.mp hx
          simpa [TxEvent.sovereignOf] using ih
        | setSecurityFlags =>
          obtain ⟨_, rfl⟩ := Teerex.setSecurityFlags_ok.mp hx
          simpa [TxEvent.sovereignOf] using ih
        | claims k => cases k <;> simp [Op.parts, Call.parts] at hp
        | _ => simp [Op.parts, Call.parts] at hp
      | _ => simp [Op.parts] at hp
    · rw [tx_frame hx hp]; exact ih
  · obtain ⟨_, _, _, _, _, _, rfl, _⟩ := h0
    rfl

example : JustStarted start ∧
    (lastWord (TxEvent.sovereignOf alice) (run cfg start [enroll alice 7]).tx.events).join =
      some (none, .invalid, .skip false) :=
  ⟨start_justStarted, by decide +kernel⟩

/-! ### C109 Collateral and security flags follow from the events -/

/-- C109: the stored TCB infos, the quoting enclave and the flags are the last ones announced; before the first
announcement they have their genesis values. -/
theorem C109_settings_told (c : Cfg) (s0 : Chain) (ops : List Op) (h0 : JustStarted s0) :
    (∀ f, (run c s0 ops).tx.tcb f = lastWord (TxEvent.tcbOf f) (run c s0 ops).tx.events) ∧
    (run c s0 ops).tx.qe = (lastWord TxEvent.qeOf (run c s0 ops).tx.events).getD s0.tx.qe ∧
    ((run c s0 ops).tx.allowSkip, (run c s0 ops).tx.allowDebug) =
      (lastWord TxEvent.flagsOf (run c s0 ops).tx.events).getD (s0.tx.allowSkip, s0.tx.allowDebug) := by
  refine run_invariant (c := c) (P := fun s =>
    (∀ f, s.tx.tcb f = lastWord (TxEvent.tcbOf f) s.tx.events) ∧
    s.tx.qe = (lastWord TxEvent.qeOf s.tx.events).getD s0.tx.qe ∧
    (s.tx.allowSkip, s.tx.allowDebug) =
      (lastWord TxEvent.flagsOf s.tx.events).getD (s0.tx.allowSkip, s0.tx.allowDebug)) ?_ ?_ ops
  · rintro s s' op ih hx
    by_cases hp : Part.teerex ∈ op.parts
    · cases op with
      | ext o k =>
        cases k with
        | registerSgxEnclave proof url m =>
          obtain ⟨b, e, rfl, h1, h2, h3, h4, h5, h6, (⟨h7, h8, rfl⟩ | ⟨h7, rfl⟩)⟩ := register_iff.mp hx <;>
          simpa [TxEvent.tcbOf, TxEvent.qeOf, TxEvent.flagsOf] using ih
        | unregisterSovereignEnclave x =>
          obtain ⟨b, e, rfl, h1, h2, rfl⟩ := Teerex.unregisterSovereignEnclave_ok.mp hx
          simpa [TxEvent.tcbOf, TxEvent.qeOf, TxEvent.flagsOf] using ih
        | unregisterProxiedEnclave x =>
          obtain ⟨b, e, rfl, h1, h2, rfl⟩ := Teerex.unregisterProxiedEnclave_ok.mp hx
          simpa [TxEvent.tcbOf, TxEvent.qeOf, TxEvent.flagsOf] using ih
        | registerQuotingEnclave =>
          obtain ⟨_, _, _, _, rfl⟩ := Teerex.registerQuotingEnclave_ok.mp hx
          refine ⟨by simpa [TxEvent.tcbOf] using ih.1, by simp [TxEvent.qeOf],
            by simpa [TxEvent.flagsOf] using ih.2.2⟩
        | registerTcbInfo =>
          obtain ⟨_, g, info, _, _, rfl⟩ := Teerex.registerTcbInfo_ok.mp hx
          refine ⟨fun f => ?_, by simpa [TxEvent.qeOf] using ih.2.1,
            by simpa [TxEvent.flagsOf] using ih.2.2⟩
          by_cases hf : g = f
          · subst hf; simp [TxEvent.tcbOf]
          · simpa [TxEvent.tcbOf, hf, Ne.symm hf] using ih.1 f
        | setSecurityFlags =>
          obtain ⟨_, rfl⟩ := Teerex.setSecurityFlags_ok.mp hx
          refine ⟨by simpa [TxEvent.tcbOf] using ih.1, by simpa [TxEvent.qeOf] using ih.2.1,
            by simp [TxEvent.flagsOf]⟩
        | claims k => cases k <;> simp [Op.parts, Call.parts] at hp
        | _ => simp [Op.parts, Call.parts] at hp
      | _ => simp [Op.parts] at hp
    · rw [tx_frame hx hp]; exact ih
  · obtain ⟨_, _, _, _, _, _, rfl, _⟩ := h0
    exact ⟨fun _ => rfl, rfl, rfl⟩

example : JustStarted start ∧
    (lastWord TxEvent.flagsOf (run cfg start [.ext .root (.setSecurityFlags false true)]).tx.events).getD
      (start.tx.allowSkip, start.tx.allowDebug) = (false, true) ∧ start.tx.allowSkip = true :=
  ⟨start_justStarted, by decide +kernel, rfl⟩

/-! ### C110 Shard configurations follow from the events -/

/-- C110, full claim: the configurations are a function of the events. -/
def C110_Full : Prop :=
  ∃ f : List BrEvent → ShardId → Option UpgradableShardConfig, ∀ (c : Cfg) (s0 : Chain) (ops : List Op),
    JustStarted s0 → (run c s0 ops).br.config = f (run c s0 ops).br.events

/-- The event names only the shard. -/
theorem C110_refuted : ¬ C110_Full := by
  rintro ⟨f, hf⟩
  have h1 := hf cfg start [.ext .root (.updateShardConfig shard7 (config 7) 0)] start_justStarted
  have h2 := hf cfg start [.ext .root (.updateShardConfig shard7 (config 8) 0)] start_justStarted
  have he : (run cfg start [.ext .root (.updateShardConfig shard7 (config 7) 0)]).br.events =
      (run cfg start [.ext .root (.updateShardConfig shard7 (config 8) 0)]).br.events := by decide +kernel
  rw [he, ← h2] at h1
  have := congrFun h1 shard7
  revert this
  decide +kernel

/-- C110: the events tell which shards are configured. Missing for the full claim: with what. -/
theorem C110_configured_partial (c : Cfg) (s0 : Chain) (ops : List Op) (h0 : JustStarted s0) (shard : ShardId) :
    (run c s0 ops).br.config shard ≠ none ↔ (run c s0 ops).br.events.any (BrEvent.configures shard) = true := by
  have hsame : ∀ (s s' : Chain) (e : BrEvent), e.configures shard = false → s'.br.events = e :: s.br.events →
      s'.br.events.any (BrEvent.configures shard) = s.br.events.any (BrEvent.configures shard) := by
    intro s s' e he h; rw [h]; simp [he]
  have hdue : ∀ (s : Chain) (x : ShardId) (n : Nat), dueConfig s x n shard = none ↔ s.br.config shard = none := by
    intro s x n
    unfold dueConfig
    by_cases hs : shard = x
    · subst hs; simp
    · simp [hs]
  refine run_invariant (c := c) (P := fun s =>
    s.br.config shard ≠ none ↔ s.br.events.any (BrEvent.configures shard) = true) ?_ ?_ ops
  · intro s s' op ih hx
    by_cases hp : Part.bridge ∈ op.parts
    · cases op with
      | ext o k =>
        cases k with
        | invoke x cy =>
          obtain ⟨a, rfl, rfl⟩ := (invoke_ok (cy := cy)).mp hx
          simpa [BrEvent.configures] using ih
        | confirmProcessedParentchainBlock x =>
          obtain ⟨a, e, l, hE, rfl⟩ := confirmProcessed_ok.mp hx
          simpa [BrEvent.configures, hdue] using ih
        | shieldFunds =>
          obtain ⟨a, b, rfl, _, rfl⟩ := shieldFunds_ok.mp hx
          simpa [BrEvent.configures] using ih
        | unshieldFunds x =>
          obtain ⟨_, _, _, _, (⟨_, _, _, _, _, rfl⟩ | ⟨_, _, _, _, rfl⟩)⟩ := unshieldFunds_ok.mp hx <;>
          simpa [BrEvent.configures, hdue] using ih
        | publishHash =>
          obtain ⟨_, _, _, _, _, _, _, _, _, rfl⟩ := publishHash_ok.mp hx
          simpa [BrEvent.configures] using ih
        | updateShardConfig x =>
          obtain (⟨_, rfl⟩ | ⟨_, _, _, _, _, _, _, _, rfl⟩) := updateShardConfig_ok.mp hx <;>
          · by_cases hs : x = shard
            · subst hs; simp [BrEvent.configures]
            · simpa [BrEvent.configures, hs, Ne.symm hs] using ih
        | purgeEnclave =>
          obtain ⟨_, _, _, _, rfl⟩ := purgeEnclave_ok.mp hx
          simpa [BrEvent.configures] using ih
        | confirmImportedSidechainBlock =>
          obtain ⟨_, _, _, _, _, _, (⟨_, rfl⟩ | ⟨_, _, rfl⟩)⟩ := Sidechain.confirmImported_ok.mp hx <;>
          simpa [hdue] using ih
        | claims k => cases k <;> simp [Op.parts, Call.parts] at hp
        | _ => simp [Op.parts, Call.parts] at hp
      | _ => simp [Op.parts] at hp
    · rw [br_frame hx hp]; exact ih
  · obtain ⟨_, _, _, _, _, _, rfl, _⟩ := h0
    simp [genesis]

example : JustStarted start ∧
    (run cfg start [.ext .root (.updateShardConfig shard7 (config 7) 0)]).br.events.any (BrEvent.configures shard7) ∧
    (run cfg start bridgeHistory).br.events.any (BrEvent.configures shard7) = false :=
  ⟨start_justStarted, by decide +kernel, by decide +kernel⟩

/-! ### C111 Oracle whitelists and exchange rates follow from the events -/

/-- C111: the releases that may report for a source, and all exchange rates, are what the events tell. -/
theorem C111_oracle_told (c : Cfg) (s0 : Chain) (ops : List Op) (h0 : JustStarted s0) (src pair : Bytes) :
    (run c s0 ops).orc.whitelist src = whitelistTold src (run c s0 ops).orc.events ∧
    (run c s0 ops).orc.rates pair src = (lastWord (OrEvent.rateOf pair src) (run c s0 ops).orc.events).join := by
  refine run_invariant (c := c) (P := fun s =>
    s.orc.whitelist src = whitelistTold src s.orc.events ∧
    s.orc.rates pair src = (lastWord (OrEvent.rateOf pair src) s.orc.events).join) ?_ ?_ ops
  · rintro s s' op ⟨ih1, ih2⟩ hx
    by_cases hp : Part.teeracle ∈ op.parts
    · cases op with
      | ext o k =>
        cases k with
        | addToWhitelist x fp =>
          obtain ⟨rfl, h1, h2, h3, rfl⟩ := Teeracle.addToWhitelist_ok.mp hx
          refine ⟨?_, by simpa [OrEvent.rateOf] using ih2⟩
          simp only [whitelistTold_cons, OrEvent.tell]
          by_cases hs : x = src
          · subst hs; simp [ih1]
          · simp [hs, Ne.symm hs, ih1]
        | removeFromWhitelist x fp =>
          obtain ⟨rfl, h1, rfl⟩ := Teeracle.removeFromWhitelist_ok.mp hx
          refine ⟨?_, by simpa [OrEvent.rateOf] using ih2⟩
          simp only [whitelistTold_cons, OrEvent.tell]
          by_cases hs : x = src
          · subst hs; simp [ih1]
          · simp [hs, Ne.symm hs, ih1]
        | updateOracle n x b =>
          obtain ⟨_, _, _, _, _, _, _, _, rfl⟩ := Teeracle.updateOracle_ok.mp hx
          exact ⟨by simpa [OrEvent.tell] using ih1, by simpa [OrEvent.rateOf] using ih2⟩
        | updateExchangeRate x p r =>
          obtain ⟨_, _, _, _, _, _, rfl⟩ := Teeracle.updateExchangeRate_ok.mp hx
          have key : ∀ (e : OrEvent) (v : Option Nat),
              (e = .exchangeRateDeleted x p ∧ v = none ∨ ∃ n, e = .exchangeRateUpdated x p n ∧ v = some n) →
              s.orc.whitelist src = whitelistTold src (e :: s.orc.events) ∧
              upd s.orc.rates p (upd (s.orc.rates p) x v) pair src =
                (lastWord (OrEvent.rateOf pair src) (e :: s.orc.events)).join := by
            intro e v he
            have hl : (lastWord (OrEvent.rateOf pair src) (e :: s.orc.events)).join =
                if x = src ∧ p = pair then v else (lastWord (OrEvent.rateOf pair src) s.orc.events).join := by
              rcases he with ⟨rfl, rfl⟩ | ⟨n, rfl, rfl⟩ <;>
              simp only [lastWord_cons, OrEvent.rateOf] <;> split <;> simp
            refine ⟨?_, ?_⟩
            · rcases he with ⟨rfl, rfl⟩ | ⟨n, rfl, rfl⟩ <;> simpa [OrEvent.tell] using ih1
            · rw [hl]
              by_cases hpp : p = pair
              · subst hpp
                by_cases hs : x = src
                · subst hs; simp
                · simp [hs, Ne.symm hs, ih2]
              · simp [hpp, Ne.symm hpp, ih2]
          refine key _ _ ?_
          match r with
          | none => exact .inl ⟨rfl, rfl⟩
          | some 0 => exact .inl ⟨rfl, rfl⟩
          | some (n + 1) => exact .inr ⟨n + 1, rfl, rfl⟩
        | claims k => cases k <;> simp [Op.parts, Call.parts] at hp
        | _ => simp [Op.parts, Call.parts] at hp
      | _ => simp [Op.parts] at hp
    · have ho : s'.orc = s.orc := exec_frame hx .teeracle hp
      rw [ho]; exact ⟨ih1, ih2⟩
  · obtain ⟨_, _, _, _, _, _, rfl, _⟩ := h0
    exact ⟨rfl, rfl⟩

example : JustStarted start ∧ whitelistTold demoSource (run cfg start oracleHistory).orc.events ≠ [] ∧
    (lastWord (OrEvent.rateOf demoPair demoSource) (run cfg start oracleHistory).orc.events).join ≠ none :=
  ⟨start_justStarted, by decide +kernel, by decide +kernel⟩

/-! ### C112 The asset registry follows from the events -/

/-- C112: the location of every asset and the asset at every location are the last ones announced. -/
theorem C112_assets_told (c : Cfg) (s0 : Chain) (ops : List Op) (h0 : JustStarted s0) :
    (∀ id, (run c s0 ops).ar.idLoc id = (lastWord (ArEvent.locationOf id) (run c s0 ops).ar.events).join) ∧
    (∀ loc, (run c s0 ops).ar.locId loc = (lastWord (ArEvent.assetAt loc) (run c s0 ops).ar.events).join) := by
  refine run_invariant (c := c) (P := fun s =>
    (∀ id, s.ar.idLoc id = (lastWord (ArEvent.locationOf id) s.ar.events).join) ∧
    (∀ loc, s.ar.locId loc = (lastWord (ArEvent.assetAt loc) s.ar.events).join)) ?_ ?_ ops
  · rintro s s' op ⟨ih1, ih2⟩ hx
    by_cases hp : Part.assetRegistry ∈ op.parts
    · cases op with
      | ext o k =>
        cases k with
        | registerReserveAsset x l =>
          obtain ⟨_, _, _, _, rfl⟩ := AssetRegistry.registerReserveAsset_ok.mp hx
          constructor
          · intro id
            by_cases h : x = id
            · subst h; simp [ArEvent.locationOf]
            · simpa [ArEvent.locationOf, h, Ne.symm h] using ih1 id
          · intro loc
            by_cases h : l = loc
            · subst h; simp [ArEvent.assetAt]
            · simpa [ArEvent.assetAt, h, Ne.symm h] using ih2 loc
        | unregisterReserveAsset x =>
          obtain ⟨l, _, _, rfl⟩ := AssetRegistry.unregisterReserveAsset_ok.mp hx
          constructor
          · intro id
            by_cases h : x = id
            · subst h; simp [ArEvent.locationOf]
            · simpa [ArEvent.locationOf, h, Ne.symm h] using ih1 id
          · intro loc
            by_cases h : l = loc
            · subst h; simp [ArEvent.assetAt]
            · simpa [ArEvent.assetAt, h, Ne.symm h] using ih2 loc
        | claims k => cases k <;> simp [Op.parts, Call.parts] at hp
        | _ => simp [Op.parts, Call.parts] at hp
      | _ => simp [Op.parts] at hp
    · have ho : s'.ar = s.ar := exec_frame hx .assetRegistry hp
      rw [ho]; exact ⟨ih1, ih2⟩
  · obtain ⟨_, _, _, _, _, _, rfl, _⟩ := h0
    exact ⟨fun _ => rfl, fun _ => rfl⟩

example : JustStarted start ∧
    (lastWord (ArEvent.assetAt locA)
      (run cfg start [.setAsset 1 5, registerOp 1 locA, unregisterOp 1, registerOp 1 locA]).ar.events).join = some 1 :=
  ⟨start_justStarted, by decide +kernel⟩

/-! ### C113 Open claims follow from the events -/

/-- C113, full claim: the open claims are a function of those at genesis and the events. -/
def C113_Full : Prop :=
  ∃ f : (EthAddr → Option Nat) → List ClEvent → EthAddr → Option Nat, ∀ (c : Cfg) (s0 : Chain) (ops : List Op),
    JustStarted s0 → (run c s0 ops).cl.claims = f s0.cl.claims (run c s0 ops).cl.events

/-- Minting a claim emits no event. -/
theorem C113_refuted : ¬ C113_Full := by
  rintro ⟨f, hf⟩
  have h1 := hf cfg start [] start_justStarted
  have h2 := hf cfg start [mintOp ethA 100 none none] start_justStarted
  have he : (run cfg start []).cl.events = (run cfg start [mintOp ethA 100 none none]).cl.events := by decide +kernel
  rw [he, ← h2] at h1
  have := congrFun h1 ethA
  revert this
  decide +kernel

/-- C113: if no claim is minted or moved, the open claims are those given at genesis without the ones whose payment
was announced. Missing for the full claim: minting and moving emit no events. -/
theorem C113_open_partial (c : Cfg) (s0 : Chain) (ops : List Op) (h0 : JustStarted s0)
    (hops : ∀ op ∈ ops, op.rewritesClaims = false) (g : EthAddr) :
    (run c s0 ops).cl.claims g =
      if (run c s0 ops).cl.events.any (ClEvent.pays g) then none else s0.cl.claims g := by
  refine run_invariant' (c := c) (Q := fun op => op.rewritesClaims = false) (P := fun s =>
    s.cl.claims g = if s.cl.events.any (ClEvent.pays g) then none else s0.cl.claims g) ?_ ?_ ops hops
  · intro s s' op hq ih hx
    rcases claims_effect hx with ⟨h, _⟩ | ⟨x, dest, due, auth, hc, ht, hp, _, hcl, _, _, hev⟩ |
      ⟨_, _, _, _, hop, _⟩ | ⟨_, _, _, _, hop, _⟩
    · rw [h]; exact ih
    · rw [hcl, hev]
      by_cases h : x = g
      · subst h; simp [ClEvent.pays]
      · simp only [List.any_cons, ClEvent.pays, h, decide_false, Bool.false_or, upd_ne _ _ (Ne.symm h)]
        exact ih
    · subst hop; simp [Op.rewritesClaims] at hq
    · subst hop; simp [Op.rewritesClaims] at hq
  · obtain ⟨_, _, _, cl, _, _, rfl, he⟩ := h0
    show cl.claims g = if cl.events.any (ClEvent.pays g) then none else cl.claims g
    rw [he]; rfl

example : JustStarted claimsStart ∧ (∀ op ∈ [attestOp bob .saft, claimOp alice], op.rewritesClaims = false) ∧
    (run cfg claimsStart [attestOp bob .saft, claimOp alice]).cl.events.length = 2 :=
  ⟨claimsStart_justStarted, by decide +kernel, by decide +kernel⟩

/-! ### C114 Swap messages follow from the events -/

/-- C114: the swaps announced are exactly the calls sent to the relay chain (pallet 70, call 3, the two ids), in the
same order. -/
theorem C114_swaps_told (c : Cfg) (s0 : Chain) (ops : List Op) (h0 : JustStarted s0) :
    (run c s0 ops).xt.sent.map (fun m => (m.1, Xcm.transacted m.2)) =
      ((run c s0 ops).xt.events.filterMap XtEvent.swapOf).map fun p =>
        (⟨1, []⟩, [[70, 3] ++ le32 p.1 ++ le32 p.2]) := by
  refine run_invariant (c := c) (P := fun s =>
    s.xt.sent.map (fun m => (m.1, Xcm.transacted m.2)) = (s.xt.events.filterMap XtEvent.swapOf).map fun p =>
        ((⟨1, []⟩ : Location), [[70, 3] ++ le32 p.1 ++ le32 p.2])) ?_ ?_ ops
  · intro s s' op ih hx
    by_cases hp : Part.xcm ∈ op.parts
    · cases op with
      | ext o k =>
        cases k with
        | sendSwapUmp self other w fee =>
          obtain ⟨hash, _, _, _, _, _, rfl⟩ := XcmTransactor.sendSwapUmp_ok.mp hx
          have h1 : ((XtEvent.swapTransactSent self other :: .sentXcm hash :: s.xt.events).filterMap XtEvent.swapOf) =
              (self, other) :: s.xt.events.filterMap XtEvent.swapOf := rfl
          have h2 : Xcm.transacted (XcmTransactor.constructTransactXcm c.ownParaId (XcmTransactor.swapCall self other) w fee)
              = [(XcmTransactor.swapCall self other).encode] := rfl
          simp only [h1, List.map_cons, h2, C61_bytes, ih]
          rfl
        | claims k => cases k <;> simp [Op.parts, Call.parts] at hp
        | _ => simp [Op.parts, Call.parts] at hp
      | _ => simp [Op.parts] at hp
    · have ho : s'.xt = s.xt := exec_frame hx .xcm hp
      rw [ho]; exact ih
  · obtain ⟨_, _, _, _, _, _, rfl, _⟩ := h0
    rfl

example : JustStarted start ∧
    (run cfg start [.ext .root (.sendSwapUmp 2223 2015 (1, 2) 3), .ext .root (.sendSwapUmp 2015 2223 (1, 2) 4)]).xt.events.filterMap
      XtEvent.swapOf = [(2015, 2223), (2223, 2015)] :=
  ⟨start_justStarted, by decide +kernel⟩

/-! ### C115 Every successful call announces itself -/

/-- C115, full claim: a successful call of these pallets emits an event. -/
def C115_Full : Prop :=
  ∀ (c : Cfg) (s s' : Chain) (o : Origin) (k : Call), exec c s (.ext o k) = .ok s' →
    (∀ dst v, k ≠ .balTransfer dst v) → eventCount s < eventCount s'

theorem C115_refuted : ¬ C115_Full := by
  intro h
  obtain ⟨s', hx⟩ : ∃ s', exec cfg start (mintOp ethA 100 none none) = .ok s' := ⟨_, rfl⟩
  have := h cfg start s' _ _ hx (by intro _ _ hk; cases hk)
  have he : eventCount (step cfg start (mintOp ethA 100 none none)) = eventCount start := by decide +kernel
  rw [step_of_ok hx] at he
  omega

/-- The calls that say nothing: minting and moving claims, a repeated unshielding, a sidechain confirmation by
another enclave than the first one of the shard. -/
def Silent (s : Chain) (o : Origin) : Call → Prop
  | .claims (.mintClaim ..) => True
  | .claims (.moveClaim ..) => True
  | .unshieldFunds _ _ _ h => s.br.executed h ≠ none
  | .confirmImportedSidechainBlock shard _ _ => ∀ a, o = .signed a → ¬ Primary s shard a
  | .balTransfer .. => True
  | _ => False

/-- C115: a successful call emits no event exactly if it is one of the silent ones. Missing for the full claim:
the silent calls. -/
theorem C115_silent_partial (c : Cfg) (s0 s' : Chain) (ops : List Op) (h0 : JustStarted s0) (o : Origin) (k : Call)
    (h : exec c (run c s0 ops) (.ext o k) = .ok s') :
    eventCount s' = eventCount (run c s0 ops) ↔ Silent (run c s0 ops) o k := by
  have hfresh : FreshBridge s0 := by
    obtain ⟨_, _, _, _, _, _, rfl, _⟩ := h0
    exact ⟨fun _ => rfl, fun _ => rfl, fun _ => rfl⟩
  have hs : StatusOk (run c s0 ops) := statusOk_run (statusOk_fresh hfresh) ops
  generalize run c s0 ops = s at h hs
  cases k with
  | bond v =>
    obtain ⟨_, _, _, _, rfl⟩ := Teerdays.bond_ok.mp h
    simp [Silent, eventCount]
  | bondExtra v =>
    obtain ⟨_, _, _, _, _, _, rfl⟩ := Teerdays.bondExtra_ok.mp h
    simp only [Silent, eventCount, List.length_cons, iff_false]; omega
  | unbond v =>
    obtain ⟨_, _, _, _, _, _, _, _, rfl⟩ := Teerdays.unbond_ok.mp h
    simp only [Silent, eventCount, List.length_cons, iff_false]; omega
  | updateOther v =>
    obtain ⟨_, _, _, _, rfl⟩ := Teerdays.updateOther_ok.mp h
    simp only [Silent, eventCount, List.length_cons, iff_false]; omega
  | withdrawUnbonded =>
    obtain ⟨_, _, _, _, _, _, rfl⟩ := Teerdays.withdrawUnbonded_ok.mp h
    simp only [Silent, eventCount, List.length_cons, iff_false]; omega
  | registerSgxEnclave =>
    obtain ⟨_, _, _, _, _, _, _, (⟨_, rfl⟩ | ⟨_, _, _, rfl⟩)⟩ := Teerex.registerSgxEnclave_ok.mp h <;>
    (simp only [Silent, eventCount, List.length_cons, iff_false]; omega)
  | unregisterSovereignEnclave =>
    obtain ⟨_, _, _, _, _, rfl⟩ := Teerex.unregisterSovereignEnclave_ok.mp h
    simp only [Silent, eventCount, List.length_cons, iff_false]; omega
  | unregisterProxiedEnclave =>
    obtain ⟨_, _, _, _, _, rfl⟩ := Teerex.unregisterProxiedEnclave_ok.mp h
    simp only [Silent, eventCount, List.length_cons, iff_false]; omega
  | registerQuotingEnclave =>
    obtain ⟨_, _, _, _, rfl⟩ := Teerex.registerQuotingEnclave_ok.mp h
    simp only [Silent, eventCount, List.length_cons, iff_false]; omega
  | registerTcbInfo =>
    obtain ⟨_, _, _, _, _, rfl⟩ := Teerex.registerTcbInfo_ok.mp h
    simp only [Silent, eventCount, List.length_cons, iff_false]; omega
  | setSecurityFlags =>
    obtain ⟨_, rfl⟩ := Teerex.setSecurityFlags_ok.mp h
    simp only [Silent, eventCount, List.length_cons, iff_false]; omega
  | invoke shard cy =>
    obtain ⟨_, _, rfl⟩ := (EnclaveBridge.invoke_ok (cy := cy)).mp h
    simp only [Silent, eventCount, List.length_cons, iff_false]; omega
  | confirmProcessedParentchainBlock =>
    obtain ⟨_, _, _, _, rfl⟩ := EnclaveBridge.confirmProcessed_ok.mp h
    simp only [Silent, eventCount, List.length_cons, iff_false]; omega
  | shieldFunds =>
    obtain ⟨_, _, _, _, rfl⟩ := EnclaveBridge.shieldFunds_ok.mp h
    simp only [Silent, eventCount, List.length_cons, iff_false]; omega
  | unshieldFunds =>
    obtain ⟨_, _, _, _, (⟨hn, _, _, _, _, rfl⟩ | ⟨_, _, hn, _, rfl⟩)⟩ := EnclaveBridge.unshieldFunds_ok.mp h
    · simp only [Silent, eventCount, List.length_cons, hn, ne_eq, not_true_eq_false, iff_false]; omega
    · simp [Silent, eventCount, hn]
  | publishHash =>
    obtain ⟨_, _, _, _, _, _, _, _, _, rfl⟩ := EnclaveBridge.publishHash_ok.mp h
    simp only [Silent, eventCount, List.length_cons, iff_false]; omega
  | updateShardConfig =>
    obtain (⟨_, rfl⟩ | ⟨_, _, _, _, _, _, _, _, rfl⟩) := EnclaveBridge.updateShardConfig_ok.mp h <;>
    (simp only [Silent, eventCount, List.length_cons, iff_false]; omega)
  | purgeEnclave =>
    obtain ⟨_, _, _, _, rfl⟩ := EnclaveBridge.purgeEnclave_ok.mp h
    simp only [Silent, eventCount, List.length_cons, iff_false]; omega
  | confirmImportedSidechainBlock =>
    obtain ⟨a, _, _, first, ⟨rfl, _, _, rfl, _⟩, hf, (⟨ha, rfl⟩ | ⟨ha, _, rfl⟩)⟩ := Sidechain.confirmImported_ok.mp h
    · rw [ne_eq, primary_iff hs hf] at ha
      simp only [Silent, eventCount, true_iff]
      rintro b ⟨⟩
      exact ha
    · rw [primary_iff hs hf] at ha
      simp only [Silent, eventCount, List.length_cons]
      constructor
      · intro h; omega
      · intro h; exact absurd ha (h a rfl)
  | addToWhitelist =>
    obtain ⟨_, _, _, _, rfl⟩ := Teeracle.addToWhitelist_ok.mp h
    simp only [Silent, eventCount, List.length_cons, iff_false]; omega
  | removeFromWhitelist =>
    obtain ⟨_, _, rfl⟩ := Teeracle.removeFromWhitelist_ok.mp h
    simp only [Silent, eventCount, List.length_cons, iff_false]; omega
  | updateOracle =>
    obtain ⟨_, _, _, _, _, _, _, _, rfl⟩ := Teeracle.updateOracle_ok.mp h
    simp only [Silent, eventCount, List.length_cons, iff_false]; omega
  | updateExchangeRate =>
    obtain ⟨_, _, _, _, _, _, rfl⟩ := Teeracle.updateExchangeRate_ok.mp h
    simp only [Silent, eventCount, List.length_cons, iff_false]; omega
  | claims k =>
    have key : ∀ {s1 : Chain} {g d}, Claims.processClaim c s g d = .ok s1 → eventCount s1 = eventCount s + 1 := by
      intro s1 g d hp
      obtain ⟨_, _, _, _, _, rfl⟩ := Claims.processClaim_ok.mp hp
      simp only [eventCount, List.length_cons]; omega
    cases k with
    | claim d g =>
      obtain ⟨_, _, _, _, hp⟩ := Claims.claim_ok.mp h
      simp [Silent, key hp]
    | mintClaim =>
      obtain ⟨_, _, _, rfl⟩ := Claims.mintClaim_ok.mp h
      simp [Silent, eventCount]
    | claimAttest =>
      obtain ⟨_, _, _, _, hp⟩ := Claims.claimAttest_ok.mp h
      simp [Silent, key hp]
    | attest =>
      obtain ⟨_, _, _, _, _, _, hp, rfl⟩ := Claims.attest_ok.mp h
      have := key hp
      simp only [Silent, iff_false]
      simp only [eventCount] at this ⊢
      omega
    | moveClaim =>
      obtain ⟨_, rfl⟩ := Claims.moveClaim_ok.mp h
      simp [Silent, eventCount]
  | registerReserveAsset =>
    obtain ⟨_, _, _, _, rfl⟩ := AssetRegistry.registerReserveAsset_ok.mp h
    simp only [Silent, eventCount, List.length_cons, iff_false]; omega
  | unregisterReserveAsset =>
    obtain ⟨_, _, _, rfl⟩ := AssetRegistry.unregisterReserveAsset_ok.mp h
    simp only [Silent, eventCount, List.length_cons, iff_false]; omega
  | sendSwapUmp =>
    obtain ⟨_, _, _, _, _, _, rfl⟩ := XcmTransactor.sendSwapUmp_ok.mp h
    simp only [Silent, eventCount, List.length_cons, iff_false]; omega
  | balTransfer =>
    obtain ⟨_, _, _, _, rfl⟩ := balTransfer_ok.mp h
    simp [Silent, eventCount]

example : JustStarted start ∧
    eventCount (run cfg start bridgeHistory) = eventCount (run cfg start (bridgeHistory.take 4)) ∧
    (exec cfg (run cfg start (bridgeHistory.take 4)) (unshield carol carol 60 hash1)).isOk = true ∧
    eventCount (run cfg start (bridgeHistory.take 4)) = 4 :=
  ⟨start_justStarted, by decide +kernel, by decide +kernel, by decide +kernel⟩

end Verif
