import Verif.Spec.Reads
import Verif.Props.Accept
import Verif.Props.Weights
import Verif.Props.Renewal

/-!
# What calls are declared to read: C171
-/

namespace Verif

open Demo EnclaveBridge

/-! ### C171 Calls declare as many reads as decide about their acceptance -/

/-- C171, full claim: whether a call is accepted is decided by at most as many readings as its weight declares. It is false for the
code (see `C171_refuted`). -/
def C171_Full : Prop :=
  ∀ (c : Cfg) (s : Chain) (o : Origin) (k : Call) (f : WeightFn), Reached c s → k.weightFn = some f →
    ∃ l : List Reading, l.length ≤ f.reads ∧ Decide c s o k l

/-- The calls whose acceptance is decided by more readings than declared. -/
def Overreads : Call → Prop
  | .confirmProcessedParentchainBlock .. => True
  | .shieldFunds .. => True
  | .unshieldFunds .. => True
  | .confirmImportedSidechainBlock .. => True
  | _ => False

/-- Reading an entry of a pallet. -/
abbrev Reading.slot (x : Scale.Slot) : Reading := .entry (.slot x)

/-- What the acceptance of a call is decided by, for the calls that are not in `Overreads`. -/
def decidedBy (c : Cfg) (s : Chain) (a : AccountId) : Call → List Reading
  | .bond _ => [.slot (.teerDayBonds a)]
  | .bondExtra _ => [.slot (.teerDayBonds a), .slot (.pendingUnlock a)]
  | .unbond _ => [.slot (.teerDayBonds a), .slot (.pendingUnlock a), .clock]
  | .updateOther who => [.slot (.teerDayBonds who)]
  | .withdrawUnbonded => [.slot (.pendingUnlock a), .clock]
  | .registerSgxEnclave proof _ m =>
    match m with
    | .ias => [.clock, .slot .allowDebug]
    | .skip _ => [.clock, .slot .allowDebug, .slot .allowSkip]
    | .dcap _ => [.clock, .slot .allowDebug, .slot .quotingEnclave] ++
        match verifyDcapQuote c.ext proof s.now s.tx.qe with
        | .ok (f, _, _) => [.slot (.tcbInfo f)]
        | .error _ => []
  | .unregisterSovereignEnclave b => [.slot (.sovereignEnclaves b), .clock]
  | .unregisterProxiedEnclave p => [.slot (.proxiedEnclaves p), .clock]
  | .registerQuotingEnclave .. | .registerTcbInfo .. => [.clock]
  | .publishHash .. =>
    match s.tx.sovereign a with
    | some e => [.slot (.sovereignEnclaves a), .slot (.shardStatus e.mrEnclave)]
    | none => [.slot (.sovereignEnclaves a)]
  | .updateShardConfig i .. => [.slot (.sovereignEnclaves a), .slot (.shardStatus i), .slot (.shardConfig i)]
  | .purgeEnclave i _ => [.slot (.shardStatus i)]
  | .addToWhitelist q _ | .removeFromWhitelist q _ => [.slot (.whitelist q)]
  | .updateOracle _ q _ | .updateExchangeRate q _ _ => [.slot (.sovereignEnclaves a), .slot (.whitelist q)]
  | .registerReserveAsset i _ => [.asset i, .slot (.assetIdLocation i)]
  | .unregisterReserveAsset i => [.slot (.assetIdLocation i)]
  | _ => []

/-- The account that signed, if any. -/
def Origin.accountOr (o : Origin) (d : AccountId) : AccountId :=
  match o with
  | .signed a => a
  | _ => d

theorem statusOk_reached {c : Cfg} {s : Chain} (h : Reached c s) : StatusOk s := by
  obtain ⟨s0, ops, h0, rfl⟩ := h
  exact statusOk_run (statusOk_fresh h0) ops

theorem attested_congr {c : Cfg} {s t : Chain} {a : AccountId} {proof : Bytes} {e : SgxEnclave} (hn : s.now = t.now)
    (hq : ∀ p, e.method = .dcap p → s.tx.qe = t.tx.qe ∧ ∀ f u r, verifyDcapQuote c.ext proof s.now s.tx.qe = .ok (f, u, r) →
      s.tx.tcb f = t.tx.tcb f)
    (hk : ∀ p, e.method = .skip p → s.tx.allowSkip = t.tx.allowSkip) : Attested c s a proof e ↔ Attested c t a proof e := by
  unfold Attested
  cases hm : e.method with
  | ias => simp only [hn]
  | skip p => simp only [hk p hm, hn]
  | dcap p =>
    obtain ⟨h1, h2⟩ := hq p hm
    constructor
    · rintro ⟨f, u, r, info, i1, i2, i3, i4⟩
      have i5 := h2 f u r ((C14_quote_authentic _ _ _ _ _ _ _).mpr i1)
      exact ⟨f, u, r, info, by rw [← hn, ← h1]; exact i1, i2, by rw [← i5]; exact i3, i4⟩
    · rintro ⟨f, u, r, info, i1, i2, i3, i4⟩
      rw [← hn, ← h1] at i1
      have i5 := h2 f u r ((C14_quote_authentic _ _ _ _ _ _ _).mpr i1)
      exact ⟨f, u, r, info, i1, i2, by rw [i5]; exact i3, i4⟩

/-- Unfold what the readings say. -/
macro "readings" "at" h:ident : tactic =>
  `(tactic| (
    simp only [decidedBy, List.mem_cons, List.not_mem_nil, or_false, forall_eq_or_imp, forall_eq, Reading.same, Cell.same,
      Scale.Slot.same] at $h:ident
    simp only [Accepts]))

/-- C171, partial: for all other calls the declared number of reads is enough: that many readings decide whether the call is
accepted. Missing for the full claim: the calls in `Overreads`. -/
theorem C171_covered_partial (c : Cfg) (s : Chain) (o : Origin) (k : Call) (f : WeightFn) (hs : Reached c s)
    (hf : k.weightFn = some f) (hk : ¬ Overreads k) : ∃ l : List Reading, l.length ≤ f.reads ∧ Decide c s o k l := by
  refine ⟨decidedBy c s (o.accountOr (Arr.zero 32)) k, ?_, fun t ht hb hx hl => ?_⟩
  · cases k <;> cases hf <;> first
      | exact absurd trivial hk
      | exact Nat.le_of_ble_eq_true rfl
      | skip
    · rename_i m
      simp only [decidedBy]
      split
      · exact Nat.le_of_ble_eq_true rfl
      · exact Nat.le_of_ble_eq_true rfl
      · split <;> exact Nat.le_of_ble_eq_true rfl
    · simp only [decidedBy, WeightFn.reads, Weights.publishHash, List.map_cons, List.map_nil, List.sum_cons, List.sum_nil]
      split <;> simp only [List.length_cons, List.length_nil] <;> omega
  · rw [accepts_iff (statusOk_reached hs), accepts_iff (statusOk_reached ht)]
    have own : ∀ {P Q : AccountId → Prop}, (P (o.accountOr (Arr.zero 32)) ↔ Q (o.accountOr (Arr.zero 32))) →
        ((∃ a, o = .signed a ∧ P a) ↔ ∃ a, o = .signed a ∧ Q a) := by
      intro P Q h
      constructor
      · rintro ⟨a, rfl, h1⟩; exact ⟨a, rfl, h.mp h1⟩
      · rintro ⟨a, rfl, h1⟩; exact ⟨a, rfl, h.mpr h1⟩
    generalize o.accountOr (Arr.zero 32) = a at hl own
    have hw : k.weightFn ≠ none := by rw [hf]; simp
    clear hf
    cases k with
    | bond v => readings at hl; exact own (by rw [hl])
    | bondExtra v => readings at hl; exact own (by rw [hl.1, hl.2])
    | unbond v => readings at hl; exact own (by rw [hl.1, hl.2.1, hl.2.2])
    | updateOther who => readings at hl; rw [hl]
    | withdrawUnbonded =>
      readings at hl
      simp only [exists_and_left]
      exact own (by rw [hl.1, hl.2])
    | registerSgxEnclave proof url m =>
      simp only [Accepts, exists_and_left]
      refine own (and_congr_right fun _ => and_congr_right fun _ => exists_congr fun e => and_congr_right fun hm =>
        and_congr_right fun _ => ?_)
      have hd : s.tx.allowDebug = t.tx.allowDebug := by
        refine hl (.slot .allowDebug) ?_
        cases m <;> simp [decidedBy]
      rw [hd]
      refine and_congr_left fun _ => attested_congr ?_ ?_ ?_
      · refine hl .clock ?_
        cases m <;> simp [decidedBy]
      · intro p hp
        rw [hm] at hp
        subst hp
        refine ⟨hl (.slot .quotingEnclave) (by simp [decidedBy]), fun f u r hv => hl (.slot (.tcbInfo f)) ?_⟩
        simp [decidedBy, hv]
      · intro p hp
        rw [hm] at hp
        subst hp
        exact hl (.slot .allowSkip) (by simp [decidedBy])
    | unregisterSovereignEnclave b => readings at hl; rw [hl.1, hl.2]
    | unregisterProxiedEnclave p => readings at hl; rw [hl.1, hl.2]
    | registerQuotingEnclave i g ch => readings at hl; rw [hl]
    | registerTcbInfo i g ch => readings at hl; rw [hl]
    | setSecurityFlags => exact Iff.rfl
    | invoke => exact Iff.rfl
    | publishHash hash topics data =>
      simp only [Accepts, exists_and_left]
      refine own (exists_congr fun e => ?_)
      have h1 : s.tx.sovereign a = t.tx.sovereign a := by
        refine hl (.slot (.sovereignEnclaves a)) ?_
        simp only [decidedBy]
        split <;> simp
      rw [← h1]
      refine and_congr_right fun he => and_congr_left fun _ => ?_
      have h2 : s.br.status e.mrEnclave = t.br.status e.mrEnclave := by
        refine hl (.slot (.shardStatus e.mrEnclave)) ?_
        simp [decidedBy, he]
      unfold HasPlace statusOf
      rw [h2]
    | updateShardConfig i q d =>
      readings at hl
      unfold HasPlace statusOf configInEffect
      simp only [exists_and_left]
      exact or_congr_right (own (by rw [hl.1, hl.2.1, hl.2.2, hb]))
    | purgeEnclave i b => readings at hl; rw [hl]
    | addToWhitelist q p => readings at hl; rw [hl]
    | removeFromWhitelist q p => readings at hl; rw [hl]
    | updateOracle n q b => readings at hl; simp only [exists_and_left]; exact own (by rw [hl.1, hl.2])
    | updateExchangeRate q p v => readings at hl; simp only [exists_and_left]; exact own (by rw [hl.1, hl.2])
    | registerReserveAsset i l => readings at hl; rw [hl.1, hl.2]
    | unregisterReserveAsset i => readings at hl; rw [hl]
    | sendSwapUmp u v w z => simp only [Accepts, hx]
    | confirmProcessedParentchainBlock => exact absurd trivial hk
    | shieldFunds => exact absurd trivial hk
    | unshieldFunds => exact absurd trivial hk
    | confirmImportedSidechainBlock => exact absurd trivial hk
    | claims q => exact absurd hw (by simp [Call.weightFn])
    | balTransfer => exact absurd hw (by simp [Call.weightFn])

example : Reached cfg start ∧ (Call.bond 100).weightFn = some Weights.bond ∧ ¬ Overreads (.bond 100) ∧ Weights.bond.reads = 5 :=
  ⟨⟨start, [], ⟨fun _ => rfl, fun _ => rfl, fun _ => rfl⟩, rfl⟩, rfl, id, rfl⟩

/-- The call cannot be decided without this reading: there is another state that differs in nothing else and in which the answer is
the other one. -/
def Essential (c : Cfg) (s : Chain) (o : Origin) (k : Call) (x : Reading) : Prop :=
  ∃ t, Reached c t ∧ t.block = s.block ∧ t.xt.sent = s.xt.sent ∧ (∀ y, y ≠ x → y.same s t) ∧
    (∃ s', exec c s (.ext o k) = .ok s') ∧ ∀ t', exec c t (.ext o k) ≠ .ok t'

theorem Essential.mem {c : Cfg} {s : Chain} {o : Origin} {k : Call} {x : Reading} (h : Essential c s o k x) {l : List Reading}
    (hl : Decide c s o k l) : x ∈ l := by
  obtain ⟨t, h1, h2, h3, h4, h5, h6⟩ := h
  refine Classical.byContradiction fun hx => ?_
  obtain ⟨t', ht⟩ := (hl t h1 h2 h3 fun y hy => h4 y (fun e => hx (e ▸ hy))).mp h5
  exact h6 t' ht

/-- Two states that differ in the enclave of one account at most. -/
theorem same_enclave {s t : Chain} {a : AccountId} {v : Option SgxEnclave} {ev : List TxEvent}
    (h : s = { t with tx := { t.tx with sovereign := upd t.tx.sovereign a v, events := ev } }) (y : Reading)
    (hy : y ≠ .slot (.sovereignEnclaves a)) : y.same s t := by
  subst h
  cases y with
  | entry x =>
    cases x with
    | slot x =>
      cases x <;> first
        | rfl
        | exact upd_ne _ _ (by rintro rfl; exact hy rfl)
    | account => exact ⟨rfl, rfl⟩
    | locks => exact fun _ => rfl
    | topic => rfl
  | clock => rfl
  | asset => rfl

/-- Two states that differ in the configuration of one shard at most. -/
theorem same_config {s t : Chain} {i : ShardId} {v : Option UpgradableShardConfig}
    (h : t = { s with br := { s.br with config := upd s.br.config i v, events := .shardConfigUpdated i :: s.br.events } })
    (y : Reading) (hy : y ≠ .slot (.shardConfig i)) : y.same s t := by
  subst h
  cases y with
  | entry x =>
    cases x with
    | slot x =>
      cases x <;> first
        | rfl
        | exact (upd_ne _ _ (by rintro rfl; exact hy rfl)).symm
    | account => exact ⟨rfl, rfl⟩
    | locks => exact fun _ => rfl
    | topic => simp [Reading.same, Cell.same, BrEvent.topics]
  | clock => rfl
  | asset => rfl

/-- Bob shields money to shard 7, for which Alice's enclave is registered. -/
def funded : List Op := [shield bob 300, enroll alice 7]

/-- Root lets other code run shard 7. -/
def replaced : Op := .ext .root (.updateShardConfig shard7 ⟨Arr.fill 32 8, none, none, false⟩ 0)

theorem reached_start (ops : List Op) : Reached okCfg (run okCfg start ops) :=
  ⟨start, ops, ⟨fun _ => rfl, fun _ => rfl, fun _ => rfl⟩, rfl⟩

theorem needs_enclave {k : Call} (h1 : (exec okCfg (run okCfg start funded) (.ext (.signed alice) k)).isOk = true)
    (h2 : (exec okCfg (run okCfg start [shield bob 300]) (.ext (.signed alice) k)).isOk = false) :
    Essential okCfg (run okCfg start funded) (.signed alice) k (.slot (.sovereignEnclaves alice)) := by
  have h : exec okCfg (run okCfg start [shield bob 300]) (enroll alice 7) = .ok (run okCfg start funded) :=
    exec_ok_of_isOk (by decide +kernel)
  obtain ⟨a, e, ha, _, _, he, _, h3⟩ := Teerex.registerSgxEnclave_ok.mp h
  cases ha
  refine ⟨_, reached_start [shield bob 300], by decide +kernel, by decide +kernel, fun y hy => ?_, ⟨_, exec_ok_of_isOk h1⟩,
    fun t' ht => by rw [ht] at h2; cases h2⟩
  rcases h3 with ⟨_, h3⟩ | ⟨_, _, _, h3⟩
  · exact same_enclave h3 y hy
  · have h4 : ((run okCfg start funded).tx.sovereign alice).isSome = true := by decide +kernel
    rw [congrArg (fun s : Chain => s.tx.sovereign alice) h3] at h4
    have h5 : ((run okCfg start [shield bob 300]).tx.sovereign alice).isSome = false := by decide +kernel
    exact Bool.noConfusion (h5.symm.trans h4)

theorem needs_config {k : Call} (h1 : (exec okCfg (run okCfg start funded) (.ext (.signed alice) k)).isOk = true)
    (h2 : (exec okCfg (run okCfg start (funded ++ [replaced])) (.ext (.signed alice) k)).isOk = false) :
    Essential okCfg (run okCfg start funded) (.signed alice) k (.slot (.shardConfig shard7)) := by
  have h : exec okCfg (run okCfg start funded) replaced = .ok (run okCfg start (funded ++ [replaced])) :=
    exec_ok_of_isOk (by decide +kernel)
  have h' : updateShardConfig okCfg (run okCfg start funded) .root shard7 ⟨Arr.fill 32 8, none, none, false⟩ 0 =
    .ok (run okCfg start (funded ++ [replaced])) := h
  rcases updateShardConfig_ok.mp h' with ⟨_, h3⟩ | ⟨_, _, _, ho, _⟩
  · exact ⟨_, reached_start (funded ++ [replaced]), by decide +kernel, by decide +kernel, fun y hy => same_config h3 y hy,
      ⟨_, exec_ok_of_isOk h1⟩, fun t' ht => by rw [ht] at h2; cases h2⟩
  · cases ho

/-- The call needs more readings than its weight declares, in some state of some history. -/
def NeedsMore (k : Call) : Prop :=
  ∃ c s o f, Reached c s ∧ k.weightFn = some f ∧ (∃ s', exec c s (.ext o k) = .ok s') ∧
    ∀ l : List Reading, Decide c s o k l → f.reads < l.length

theorem two_le {α : Type} {x y : α} {l : List α} (hx : x ∈ l) (hy : y ∈ l) (h : x ≠ y) : 2 ≤ l.length := by
  match l with
  | [] => cases hx
  | [z] =>
    rw [List.mem_singleton] at hx hy
    exact absurd (hx.trans hy.symm) h
  | _ :: _ :: _ => simp

/-- C171: the four calls that are left out need more readings than declared: confirming a parentchain block and confirming a
sidechain block declare one, but need the enclave and the configuration of the shard; unshielding and shielding declare none. -/
theorem C171_each_refuted :
    NeedsMore (.confirmProcessedParentchainBlock shard7 hash1 5 hash2) ∧
    NeedsMore (.confirmImportedSidechainBlock shard7 none ⟨1, hash1⟩) ∧
    NeedsMore (.unshieldFunds shard7 carol 60 hash1) ∧
    NeedsMore (.shieldFunds shard7 [1, 2] 100) := by
  have acc : ∀ {k : Call}, (exec okCfg (run okCfg start funded) (.ext (.signed alice) k)).isOk = true →
      ∃ s', exec okCfg (run okCfg start funded) (.ext (.signed alice) k) = .ok s' := fun h => ⟨_, exec_ok_of_isOk h⟩
  refine ⟨⟨okCfg, _, .signed alice, _, reached_start funded, rfl, acc (by decide +kernel), fun l hl => ?_⟩,
    ⟨okCfg, _, .signed alice, _, reached_start funded, rfl, acc (by decide +kernel), fun l hl => ?_⟩,
    ⟨okCfg, _, .signed alice, _, reached_start funded, rfl, acc (by decide +kernel), fun l hl => ?_⟩,
    ⟨okCfg, _, .signed bob, _, reached_start [], rfl, ⟨_, exec_ok_of_isOk (by decide +kernel)⟩, fun l hl => ?_⟩⟩
  · exact two_le ((needs_enclave (by decide +kernel) (by decide +kernel)).mem hl)
      ((needs_config (by decide +kernel) (by decide +kernel)).mem hl) (by decide)
  · exact two_le ((needs_enclave (by decide +kernel) (by decide +kernel)).mem hl)
      ((needs_config (by decide +kernel) (by decide +kernel)).mem hl) (by decide)
  · exact Nat.lt_of_lt_of_le (by decide : 0 < 2) (two_le ((needs_enclave (by decide +kernel) (by decide +kernel)).mem hl)
      ((needs_config (by decide +kernel) (by decide +kernel)).mem hl) (by decide))
  · have h0 : l ≠ [] := by
      rintro rfl
      obtain ⟨t', ht⟩ := (hl _ (reached_start [.slash bob (10 ^ 9)]) (by decide +kernel) (by decide +kernel)
        (fun x hx => absurd hx List.not_mem_nil)).mp ⟨_, exec_ok_of_isOk (by decide +kernel)⟩
      have h1 : (exec okCfg (run okCfg start [.slash bob (10 ^ 9)]) (.ext (.signed bob) (.shieldFunds shard7 [1, 2] 100))).isOk = false := by
        decide +kernel
      rw [ht] at h1
      cases h1
    exact List.length_pos_iff.mpr h0

theorem C171_refuted : ¬ C171_Full := fun h => by
  obtain ⟨c, s, o, f, h1, h2, _, h4⟩ := C171_each_refuted.1
  obtain ⟨l, h5, h6⟩ := h c s o _ f h1 h2
  exact absurd (h4 l h6) (by omega)

/-- C171: no call needs more readings than declared, in any state, but the four that are left out. -/
theorem C171_sharp (k : Call) (hk : ¬ Overreads k) : ¬ NeedsMore k := by
  rintro ⟨c, s, o, g, h1, h2, _, h4⟩
  obtain ⟨l, h5, h6⟩ := C171_covered_partial c s o k g h1 h2 hk
  exact absurd (h4 l h6) (by omega)

end Verif
