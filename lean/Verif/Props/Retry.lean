import Verif.Spec.Retry
import Verif.Props.Effect
import Verif.Props.Sidechain

/-!
# Sending a call twice: C159
-/

namespace Verif

open Demo

/-! ### C159 What a repeated call does -/

theorem relocated_twice {V : Type} (m m' : EthAddr → Option V) (old new : EthAddr) (h : ∀ x, m' x = relocated m old new x) (x : EthAddr) :
    m' x = relocated m' old new x := by
  have ho := h old
  have hx := h x
  have hn := h new
  unfold relocated at *
  by_cases h1 : old = new
  · subst h1
    by_cases h2 : x = old
    · subst h2; by_cases h3 : m' x = none <;> simp_all
    · simp [h2]
  · have : ¬ (old = new ∧ m old ≠ none) := fun h => h1 h.1
    rw [if_neg this, if_pos rfl] at ho
    simp only [ho, ne_eq, not_true_eq_false, and_false, if_false]
    by_cases h2 : x = old
    · subst h2; simpa using ho
    · simp [h2]

theorem touchedList_twice (l : List SignerStatus) (new : SignerStatus) : touchedList (touchedList l new) new = touchedList l new := by
  have hm : new.signer ∈ (touchedList l new).map (·.signer) := List.mem_map_of_mem (new_mem_touchedList l new)
  rw [touchedList, if_pos hm]
  refine (List.map_congr_left fun i hi => ?_).trans (List.map_id _)
  rcases mem_touchedList hi with rfl | ⟨_, hne⟩
  · simp
  · simp [hne]

theorem enacted_inEffect (u : UpgradableShardConfig) (b n : Nat) (h : b ≤ n) : (u.enacted b).inEffect n = u.inEffect n := by
  unfold UpgradableShardConfig.enacted UpgradableShardConfig.inEffect
  obtain ⟨act, p, t⟩ := u
  cases p <;> cases t <;> simp only
  rename_i p t
  by_cases ht : t ≤ b
  · rw [if_pos ht]; simp [show t ≤ n by omega]
  · rw [if_neg ht]

theorem enacted_twice (u : UpgradableShardConfig) (b : Nat) : (u.enacted b).enacted b = u.enacted b := by
  obtain ⟨act, p, t⟩ := u
  cases p <;> cases t <;> simp only [UpgradableShardConfig.enacted]
  rename_i p t
  by_cases ht : t ≤ b <;> simp [ht]

theorem hasPlace_again {s s' : Chain} {shard : ShardId} {a : AccountId} {fp : Fingerprint} (hn : Noted s s' shard a fp) :
    HasPlace s' shard a := by
  left
  rw [statusOf, hn, Option.getD_some]
  exact List.mem_map_of_mem (f := SignerStatus.signer) (new_mem_touchedList (statusOf s shard) ⟨a, fp, s.block⟩)

theorem noted_again {s s' : Chain} {shard : ShardId} {a : AccountId} {fp : Fingerprint} (hb : s'.block = s.block)
    (hn : Noted s s' shard a fp) : Noted s' s' shard a fp := by
  unfold Noted at *
  rw [hb, statusOf, hn, Option.getD_some, touchedList_twice]

theorem acted_inEffect {s s' : Chain} {shard : ShardId} {a : AccountId} (h : Acted s s' shard a) {n : Nat} (hn : s.block ≤ n) :
    configInEffect s' shard n = configInEffect s shard n := by
  rw [configInEffect, h.2, configInEffect, Option.map_map]
  congr 1
  funext u
  exact enacted_inEffect u _ _ hn

theorem acted_again {s s' : Chain} {shard : ShardId} {a : AccountId} (hb : s'.block = s.block) (h : Acted s s' shard a) :
    Acted s' s' shard a := by
  have hf : fingerprintInEffect s' shard s'.block = fingerprintInEffect s shard s.block := by
    rw [fingerprintInEffect, fingerprintInEffect, hb, acted_inEffect h (Nat.le_refl _)]
  refine ⟨by rw [hf]; exact noted_again hb h.1, ?_⟩
  rw [h.2, Option.map_map, hb]
  congr 1
  funext u
  exact (enacted_twice u _).symm

theorem mayAct_again {s s' : Chain} {o : Origin} {shard : ShardId} {a b : AccountId} (hb : s'.block = s.block) (h : MayAct s o shard a)
    (ho : o = .signed b) (ha : Acted s s' shard b) (he : (Place.enclaves a).same s s') : MayAct s' o shard a := by
  obtain ⟨rfl, ⟨e, h1, h2⟩, _⟩ := h
  injection ho with ho
  subst ho
  refine ⟨rfl, ⟨e, by rw [← he.1]; exact h1, ?_⟩, hasPlace_again ha.1⟩
  rw [h2, fingerprintInEffect, fingerprintInEffect, hb, acted_inEffect ha (Nat.le_refl _)]

/-- The result of such a call is a state in which the call is acceptable and has its effect already. -/
theorem harmless_fixed {c : Cfg} {s s' : Chain} (hs : StatusOk s) {o : Origin} {k : Call} (hk : k.retry = .harmless)
    (hx : exec c s (.ext o k) = .ok s') : Accepts c s' o k ∧ Effect c s' s' o k := by
  obtain ⟨hacc, heff, hnow, hblock, hsame, _⟩ := (exactly hs o k s').mp hx
  cases k with
  | updateOther who =>
    obtain ⟨a, rfl, hb⟩ := hacc
    have he : s'.td.bonds who = some (bondNow c s who) := heff
    refine ⟨⟨a, rfl, by rw [he]; simp⟩, ?_⟩
    show s'.td.bonds who = some (bondNow c s' who)
    have hle : tokentimeNow c s who ≤ c.balMax := by
      unfold tokentimeNow
      cases h : s.td.bonds who with
      | none => exact absurd h hb
      | some b => simp only [Option.elim_some]; exact Nat.min_le_right _ _
    rw [he]
    simp only [bondNow, bondValue, tokentimeNow, he, hnow, Option.elim_some, Nat.sub_self, Nat.mul_zero, Nat.add_zero]
    simp only [bondNow, bondValue, tokentimeNow] at hle ⊢
    simp [Nat.min_eq_left hle]
  | registerSgxEnclave proof url m =>
    obtain ⟨a, e, rfl, h1, h2, h3, h4, h5, h6, h7⟩ := hacc
    obtain ⟨a', e', ho, g1, g2, g3, g4⟩ := heff
    injection ho with ho
    subst ho
    have q1 : s.tx.qe = s'.tx.qe := hsame .quotingEnclave (by simp [Call.changes, Origin.own])
    have q2 : s.tx.tcb = s'.tx.tcb := hsame .platforms (by simp [Call.changes, Origin.own])
    obtain ⟨q3, q4⟩ : s.tx.allowDebug = s'.tx.allowDebug ∧ s.tx.allowSkip = s'.tx.allowSkip :=
      hsame .flags (by simp [Call.changes, Origin.own])
    have ha : ∀ e, Attested c s a proof e → Attested c s' a proof e := fun e h => by
      unfold Attested at *
      rw [hnow, ← q1, ← q2, ← q4]
      exact h
    refine ⟨⟨a, e, rfl, h1, h2, h3, h4, ha e h5, by rw [← q3]; exact h6, h7⟩, a, e', rfl, g1, g2, ha e' g3, ?_⟩
    unfold Enrolled at g4 ⊢
    split
    · rename_i hp
      rw [if_pos hp] at g4
      refine ⟨rfl, fun x hx => ?_⟩
      split
      · rename_i hx2; rw [g4.2 x hx, if_pos hx2]
      · rfl
    · rename_i hp
      rw [if_neg hp] at g4
      exact ⟨g4.1, fun _ _ => rfl⟩
  | registerQuotingEnclave i g ch =>
    obtain ⟨a, q, rfl, h1, h2⟩ := hacc
    exact ⟨⟨a, q, rfl, by rw [hnow]; exact h1, by rw [hnow]; exact h2⟩, by
      show SignedIdentity c s'.now i g ch s'.tx.qe
      rw [hnow]; exact heff⟩
  | registerTcbInfo i g ch =>
    obtain ⟨a, f, t, rfl, h1, h2⟩ := hacc
    obtain ⟨f', t', g1, g2, _⟩ := heff
    exact ⟨⟨a, f, t, rfl, by rw [hnow]; exact h1, by rw [hnow]; exact h2⟩, f', t', by rw [hnow]; exact g1, g2, fun _ _ => rfl⟩
  | setSecurityFlags x y => exact ⟨hacc, heff⟩
  | invoke i x => exact ⟨hacc, trivial⟩
  | confirmProcessedParentchainBlock i h n r =>
    obtain ⟨a, hm⟩ := hacc
    obtain ⟨b, rfl, h1, _⟩ := heff
    have he := hsame (.enclaves a) (by simp [Call.changes])
    exact ⟨⟨a, mayAct_again hblock hm rfl h1 he⟩, b, rfl, acted_again hblock h1, rfl⟩
  | publishHash h l d =>
    obtain ⟨a, e, rfl, h1, h2, h3, h4⟩ := hacc
    obtain ⟨a', e', ho, g1, g2, _⟩ := heff
    injection ho with ho
    subst ho
    obtain rfl : e = e' := Option.some.inj (h1.symm.trans g1)
    have he : s'.tx.sovereign a = some e := by
      rw [← (hsame (.enclaves a) (by simp [Call.changes, Origin.own, ownShard, h1])).1]; exact h1
    exact ⟨⟨a, e, rfl, he, hasPlace_again g2, h3, h4⟩, a, e, rfl, he, noted_again hblock g2, rfl, rfl⟩
  | purgeEnclave i a =>
    obtain ⟨h1, _, _⟩ := heff
    refine ⟨⟨hacc.1, by rw [h1]; simp⟩, ?_, rfl, rfl⟩
    show s'.br.status i = some ((statusOf s' i).filter fun j => j.signer ≠ a)
    rw [show statusOf s' i = (statusOf s i).filter fun j => j.signer ≠ a by rw [statusOf, h1, Option.getD_some], List.filter_filter, h1]
    simp
  | updateOracle n q b =>
    obtain ⟨a, e, rfl, h1, h2, h3⟩ := hacc
    have he : s'.tx.sovereign a = some e := by rw [← (hsame (.enclaves a) (by simp [Call.changes])).1]; exact h1
    have hw : s.orc.whitelist q = s'.orc.whitelist q := hsame (.whitelist q) (by simp [Call.changes])
    exact ⟨⟨a, e, rfl, he, by rw [← hw]; exact h2, h3⟩, heff⟩
  | updateExchangeRate q p r =>
    obtain ⟨a, e, rfl, h1, h2, h3⟩ := hacc
    have he : s'.tx.sovereign a = some e := by rw [← (hsame (.enclaves a) (by simp [Call.changes])).1]; exact h1
    have hw : s.orc.whitelist q = s'.orc.whitelist q := hsame (.whitelist q) (by simp [Call.changes])
    exact ⟨⟨a, e, rfl, he, by rw [← hw]; exact h2, h3⟩, heff⟩
  | claims k =>
    cases k with
    | moveClaim old new p =>
      obtain ⟨h1, h2, h3⟩ := heff
      refine ⟨hacc, rfl, fun x => ⟨relocated_twice _ _ old new (fun x => (h2 x).1) x, relocated_twice _ _ old new (fun x => (h2 x).2.1) x,
        relocated_twice _ _ old new (fun x => (h2 x).2.2) x⟩, fun q => ?_⟩
      rw [h3 q]
      by_cases hq : p = some q ∧ s.cl.preclaims q = some old
      · rw [if_pos hq]
        by_cases hn : new = old <;> simp [hn]
      · rw [if_neg hq, if_neg hq]
    | _ => exact absurd hk (by simp [Call.retry])
  | _ => exact absurd hk (by simp [Call.retry])

/-- **C159** A call that is harmless to repeat: the second one is accepted too and changes nothing, only its event is there twice. -/
theorem C159_harmless (c : Cfg) (s0 : Chain) (ops : List Op) (h0 : FreshBridge s0) (o : Origin) (k : Call) (hk : k.retry = .harmless)
    (s' : Chain) (hx : exec c (run c s0 ops) (.ext o k) = .ok s') :
    ∃ s'', exec c s' (.ext o k) = .ok s'' ∧ s''.now = s'.now ∧ s''.block = s'.block ∧ ∀ x : Place, x.same s' s'' := by
  have hs := statusOk_run (c := c) (statusOk_fresh h0) ops
  obtain ⟨h1, h2⟩ := harmless_fixed hs hk hx
  have hs' := statusOk_exec hs hx
  obtain ⟨s'', h⟩ := (accepts_iff hs' o k).mpr h1
  obtain ⟨_, _, e1, e2, e3, _⟩ := (exactly hs' o k s'').mp h
  refine ⟨s'', h, e1, e2, fun x => ?_⟩
  by_cases hc : x ∈ k.changes c s' o
  · exact effect_determines hs' h h2 x hc
  · exact e3 x hc

/-- Alice confirms a parentchain block twice. -/
example : FreshBridge start ∧ (Call.confirmProcessedParentchainBlock shard7 hash1 5 hash2).retry = .harmless ∧
    ∃ s', exec cfg (run cfg start bridgeHistory) (.ext (.signed alice) (.confirmProcessedParentchainBlock shard7 hash1 5 hash2)) = .ok s' :=
  ⟨⟨fun _ => rfl, fun _ => rfl, fun _ => rfl⟩, rfl, _, exec_ok_of_isOk (op := .ext (.signed alice) (.confirmProcessedParentchainBlock shard7 hash1 5 hash2))
    (by decide +kernel)⟩

/-- **C159** A call that can be made only once: the second one is refused. -/
theorem C159_refused (c : Cfg) (s0 : Chain) (ops : List Op) (h0 : FreshBridge s0) (o : Origin) (k : Call) (hk : k.retry = .refused)
    (s' : Chain) (hx : exec c (run c s0 ops) (.ext o k) = .ok s') : ∀ s'', exec c s' (.ext o k) ≠ .ok s'' := by
  intro s'' hx'
  have hs := statusOk_run (c := c) (statusOk_fresh h0) ops
  obtain ⟨hacc, heff, -⟩ := (exactly hs o k s').mp hx
  obtain ⟨hacc', -⟩ := (exactly (statusOk_exec hs hx) o k s'').mp hx'
  cases k with
  | bond v =>
    obtain ⟨a, rfl, h1, _⟩ := hacc'
    obtain ⟨b, hb, h2, _⟩ := heff
    injection hb with hb; subst hb
    rw [h1] at h2; cases h2
  | unbond v =>
    obtain ⟨a, rfl, _, h1, _⟩ := hacc'
    obtain ⟨b, hb, _, h2⟩ := heff
    injection hb with hb; subst hb
    rw [h1] at h2; cases h2
  | withdrawUnbonded =>
    obtain ⟨a, _, _, rfl, h1, _⟩ := hacc'
    obtain ⟨b, hb, h2, _⟩ := heff
    injection hb with hb; subst hb
    rw [h1] at h2; cases h2
  | unregisterSovereignEnclave a =>
    obtain ⟨_, e, _, h1, _⟩ := hacc'
    rw [heff.1] at h1; cases h1
  | unregisterProxiedEnclave p =>
    obtain ⟨_, e, _, h1, _⟩ := hacc'
    rw [heff.2.1] at h1; cases h1
  | addToWhitelist q fp =>
    have h : s'.orc.whitelist q = _ := heff
    have h' := hacc'.2.2.1
    rw [h] at h'
    simp at h'
  | removeFromWhitelist q fp =>
    have h : s'.orc.whitelist q = _ := heff
    have h' := hacc'.2
    rw [h] at h'
    simp at h'
  | registerReserveAsset i l =>
    have h' := hacc'.2.2.1
    rw [heff.1 i, if_pos rfl] at h'
    cases h'
  | unregisterReserveAsset i =>
    have h' := hacc'.2
    rw [heff.1 i, if_pos rfl] at h'
    exact h' rfl
  | claims k =>
    cases k with
    | claim d sig =>
      obtain ⟨g, due, h1, _, h2, _⟩ := heff
      obtain ⟨_, g', h1', _, ⟨_, h3, _⟩, _⟩ := hacc'
      rw [h1'.unique h1, (h2.1 g).1, if_pos rfl] at h3
      cases h3
    | claimAttest d sig st =>
      obtain ⟨g, due, h1, _, h2, _⟩ := heff
      obtain ⟨_, g', h1', _, ⟨_, h3, _⟩, _⟩ := hacc'
      rw [h1'.unique h1, (h2.1 g).1, if_pos rfl] at h3
      cases h3
    | attest st =>
      obtain ⟨a, g, due, rfl, _, _, _, h2⟩ := heff
      obtain ⟨b, g', hb, h1', _⟩ := hacc'
      injection hb with hb; subst hb
      rw [h2 a, if_pos rfl] at h1'
      cases h1'
    | _ => exact absurd hk (by simp [Call.retry])
  | _ => exact absurd hk (by simp [Call.retry])

/-- Alice bonds, and cannot do so twice. -/
example : FreshBridge start ∧ (Call.bond 100).retry = .refused ∧
    ∃ s', exec cfg (run cfg start []) (.ext (.signed alice) (.bond 100)) = .ok s' :=
  ⟨⟨fun _ => rfl, fun _ => rfl, fun _ => rfl⟩, rfl, _, exec_ok_of_isOk (op := .ext (.signed alice) (.bond 100)) (by decide +kernel)⟩

/-- **C159** A sidechain block: the first signer of the shard cannot finalize it twice; a confirmation from another enclave changes
nothing when it is repeated. -/
theorem C159_sidechain (c : Cfg) (s0 : Chain) (ops : List Op) (h0 : FreshBridge s0) (o : Origin) (shard : ShardId)
    (anc : Option Confirmation) (cand : Confirmation) (a : AccountId) (ha : o = .signed a) (s' : Chain)
    (hx : exec c (run c s0 ops) (.ext o (.confirmImportedSidechainBlock shard anc cand)) = .ok s') :
    (Primary (run c s0 ops) shard a → ∀ s'', exec c s' (.ext o (.confirmImportedSidechainBlock shard anc cand)) ≠ .ok s'') ∧
    (¬ Primary (run c s0 ops) shard a → ∃ s'', exec c s' (.ext o (.confirmImportedSidechainBlock shard anc cand)) = .ok s'' ∧
      ∀ x : Place, x.same s' s'') := by
  have hs := statusOk_run (c := c) (statusOk_fresh h0) ops
  generalize run c s0 ops = s at *
  have hs' := statusOk_exec hs hx
  obtain ⟨⟨a1, hm, hf⟩, ⟨a2, ho2, hact, hl⟩, hnow, hblock, hsame, _⟩ := (exactly hs _ _ s').mp hx
  subst ha
  injection ho2 with ho2
  subst ho2
  obtain ⟨ho1, _⟩ := id hm
  injection ho1 with ho1
  subst ho1
  have hprim : Primary s' shard a ↔ Primary s shard a := by
    have hst : statusOf s' shard = touchedList (statusOf s shard) ⟨a, fingerprintInEffect s shard s.block, s.block⟩ := by
      rw [statusOf, hact.1, Option.getD_some]
    unfold Primary
    rw [hst, touchedList_head rfl]
    simp [touchedList_ne_nil]
  constructor
  · intro hp s'' hx'
    obtain ⟨⟨b, hm', hf'⟩, -⟩ := (exactly hs' _ _ s'').mp hx'
    obtain ⟨hb, _⟩ := hm'
    injection hb with hb
    subst hb
    rcases hl with ⟨_, hl⟩ | ⟨hn, _⟩
    · have := hf' (hprim.mpr hp) _ hl
      exact absurd this.2 (Nat.lt_irrefl _)
    · exact hn hp
  · intro hp
    have he := hsame (.enclaves a) (by simp [Call.changes])
    have hacc : Accepts c s' (.signed a) (.confirmImportedSidechainBlock shard anc cand) :=
      ⟨a, mayAct_again hblock hm rfl hact he, fun h => absurd (hprim.mp h) hp⟩
    obtain ⟨s'', h⟩ := (accepts_iff hs' _ _).mpr hacc
    obtain ⟨_, _, _, _, e3, _⟩ := (exactly hs' _ _ s'').mp h
    refine ⟨s'', h, fun x => ?_⟩
    by_cases hc : x ∈ (Call.confirmImportedSidechainBlock shard anc cand).changes c s' (.signed a)
    · exact effect_determines hs' h ⟨a, rfl, acted_again hblock hact, .inr ⟨fun h => hp (hprim.mp h), rfl⟩⟩ x hc
    · exact e3 x hc

/-- Alice is the first signer of the shard, Carol is not; both confirm a block. -/
example : FreshBridge start ∧ Primary (run cfg start bridgeHistory) shard7 alice ∧ ¬ Primary (run cfg start bridgeHistory) shard7 carol ∧
    (∃ s', exec cfg (run cfg start bridgeHistory) (.ext (.signed alice) (.confirmImportedSidechainBlock shard7 none ⟨5, hash1⟩)) = .ok s') ∧
    ∃ s', exec cfg (run cfg start bridgeHistory) (.ext (.signed carol) (.confirmImportedSidechainBlock shard7 none ⟨5, hash1⟩)) = .ok s' :=
  ⟨⟨fun _ => rfl, fun _ => rfl, fun _ => rfl⟩, .inr (by decide +kernel), by unfold Primary; decide +kernel,
    ⟨_, exec_ok_of_isOk (op := .ext (.signed alice) (.confirmImportedSidechainBlock shard7 none ⟨5, hash1⟩)) (by decide +kernel)⟩,
    _, exec_ok_of_isOk (op := .ext (.signed carol) (.confirmImportedSidechainBlock shard7 none ⟨5, hash1⟩)) (by decide +kernel)⟩

/-- **C159** Unshielding: the second call with the same hash is accepted, and moves no money. -/
theorem C159_unshield (c : Cfg) (s0 : Chain) (ops : List Op) (h0 : FreshBridge s0) (o : Origin) (shard : ShardId) (ben : AccountId)
    (amount : Nat) (h : H256) (s' : Chain) (hx : exec c (run c s0 ops) (.ext o (.unshieldFunds shard ben amount h)) = .ok s') :
    (∀ s'', exec c s' (.ext o (.unshieldFunds shard ben amount h)) = .ok s'' →
      (∀ a, (Place.money a).same s' s'') ∧ Place.issuance.same s' s'') ∧
    ((run c s0 ops).br.executed h = none → ∃ s'', exec c s' (.ext o (.unshieldFunds shard ben amount h)) = .ok s'' ∧
      s''.br.executed h = some 2) := by
  have hs := statusOk_run (c := c) (statusOk_fresh h0) ops
  generalize run c s0 ops = s at *
  have hs' := statusOk_exec hs hx
  obtain ⟨⟨a, hm, _⟩, ⟨a2, ho, hact, _, he⟩, hnow, hblock, hsame, _⟩ := (exactly hs _ _ s').mp hx
  have hsome : ∃ n, s'.br.executed h = some n ∧ (s.br.executed h = none → n = 1) := by
    cases hn : s.br.executed h with
    | none => rw [hn] at he; exact ⟨1, he.1, fun _ => rfl⟩
    | some n => rw [hn] at he; exact ⟨_, he.1, fun h => by cases h⟩
  obtain ⟨n, hn, hn1⟩ := hsome
  constructor
  · intro s'' hx'
    obtain ⟨-, ⟨_, _, _, _, he'⟩, _, _, hsame', _⟩ := (exactly hs' _ _ s'').mp hx'
    rw [hn] at he'
    obtain ⟨_, m1, m2, m3⟩ := he'
    refine ⟨fun b => ?_, m3⟩
    by_cases hb : Place.money b ∈ (Call.unshieldFunds shard ben amount h).changes c s' o
    · have hb' : b = shard ∨ b = ben := by
        simp only [Call.changes, sending, List.mem_append, List.mem_cons, List.not_mem_nil, or_false, reduceCtorEq, false_or,
          Place.money.injEq] at hb
        rcases hb with h | h
        · exact h
        · split at h <;> simp at h
      rcases hb' with rfl | rfl
      · exact m1
      · exact m2
    · exact hsame' _ hb
  · intro hnone
    have h1 := hn1 hnone
    subst h1
    have hen := hsame (.enclaves a) (by simp [Call.changes, sending])
    have hacc : Accepts c s' o (.unshieldFunds shard ben amount h) := by
      refine ⟨a, mayAct_again hblock hm ho hact hen, ?_⟩
      rw [hn]
      exact .inl (by omega)
    obtain ⟨s'', h2⟩ := (accepts_iff hs' _ _).mpr hacc
    obtain ⟨-, ⟨_, _, _, _, he'⟩, -⟩ := (exactly hs' _ _ s'').mp h2
    rw [hn] at he'
    exact ⟨s'', h2, he'.1⟩

/-- Alice unshields 10 with a new hash. -/
example : FreshBridge start ∧ (run cfg start bridgeHistory).br.executed hash2 = none ∧
    ∃ s', exec cfg (run cfg start bridgeHistory) (.ext (.signed alice) (.unshieldFunds shard7 carol 10 hash2)) = .ok s' :=
  ⟨⟨fun _ => rfl, fun _ => rfl, fun _ => rfl⟩, by decide +kernel, _,
    exec_ok_of_isOk (op := .ext (.signed alice) (.unshieldFunds shard7 carol 10 hash2)) (by decide +kernel)⟩

/-- **C159** The configuration of a shard: if the second call is accepted, the same configuration is in effect as without it, in
every later block. -/
theorem C159_configuration (c : Cfg) (s0 : Chain) (ops : List Op) (h0 : FreshBridge s0) (o : Origin) (shard : ShardId) (cfg : ShardConfig)
    (delay : Nat) (s' s'' : Chain) (hx : exec c (run c s0 ops) (.ext o (.updateShardConfig shard cfg delay)) = .ok s')
    (hx' : exec c s' (.ext o (.updateShardConfig shard cfg delay)) = .ok s'') (i : ShardId) (n : Nat) (hn : s''.block ≤ n) :
    configInEffect s'' i n = configInEffect s' i n := by
  have hs := statusOk_run (c := c) (statusOk_fresh h0) ops
  generalize run c s0 ops = s at *
  have hs' := statusOk_exec hs hx
  obtain ⟨-, ⟨h1, _⟩, _, hb, -⟩ := (exactly hs _ _ s').mp hx
  obtain ⟨-, ⟨h2, _⟩, _, hb', hsame, _⟩ := (exactly hs' _ _ s'').mp hx'
  by_cases hi : i = shard
  · subst hi
    have hblk : s'.block ≤ n := hb' ▸ hn
    have e1 : configInEffect s' i = fun m => some ((configured c s i cfg delay).inEffect m) := by
      funext m; simp [configInEffect, h1]
    rw [configInEffect, h2, configured, e1]
    unfold configured
    cases ho : configInEffect s i s.block with
    | none => simp [UpgradableShardConfig.inEffect]
    | some old =>
      simp only [UpgradableShardConfig.inEffect, Option.map_some, hb]
      congr 1
      by_cases ht : min (s.block + delay) c.blockMax ≤ n
      · simp [ht]
      · have : ¬ min (s.block + delay) c.blockMax ≤ s.block := by rw [hb] at hblk; omega
        simp [ht, this]
  · rw [configInEffect, configInEffect, (hsame (.shard i) (by simp [Call.changes, hi])).2.1]

/-- Alice sets the configuration of the shard twice. -/
example : FreshBridge start ∧ ∃ s' s'', exec cfg (run cfg start bridgeHistory) (.ext (.signed alice) (.updateShardConfig shard7 (config 7) 3)) = .ok s' ∧
    exec cfg s' (.ext (.signed alice) (.updateShardConfig shard7 (config 7) 3)) = .ok s'' ∧ s''.block ≤ 100 :=
  ⟨⟨fun _ => rfl, fun _ => rfl, fun _ => rfl⟩, _, _,
    exec_ok_of_isOk (op := .ext (.signed alice) (.updateShardConfig shard7 (config 7) 3)) (by decide +kernel),
    exec_ok_of_isOk (op := .ext (.signed alice) (.updateShardConfig shard7 (config 7) 3)) (by decide +kernel), by decide +kernel⟩

/-- **C159** The remaining calls are done again: money is sent twice, the claims total rises twice although there is one claim, the
program is sent twice, and more is bonded. -/
theorem C159_again (c : Cfg) (s0 : Chain) (ops : List Op) (h0 : FreshBridge s0) (o : Origin) (k : Call) (hk : k.retry = .again) (s' s'' : Chain)
    (hx : exec c (run c s0 ops) (.ext o k) = .ok s') (hx' : exec c s' (.ext o k) = .ok s'') :
    DoneTwice c (run c s0 ops) s' s'' o k := by
  have hs := statusOk_run (c := c) (statusOk_fresh h0) ops
  generalize run c s0 ops = s at *
  have hs' := statusOk_exec hs hx
  obtain ⟨-, e1, -⟩ := (exactly hs _ _ s').mp hx
  obtain ⟨-, e2, -⟩ := (exactly hs' _ _ s'').mp hx'
  have sent : ∀ {t t' : Chain} {a dst : AccountId} {v : Nat}, Sent c t t' a dst v → a ≠ dst → t'.bal.free dst = t.bal.free dst + v := by
    intro t t' a dst v h hne
    obtain ⟨_, h⟩ := h
    by_cases hv : v = 0
    · rw [if_pos (.inl hv)] at h; omega
    · rw [if_neg (by simp [hv, hne])] at h; exact h.2.1
  cases k with
  | shieldFunds dst i v =>
    intro a ha hne
    subst ha
    obtain ⟨_, ho, g1⟩ := e1
    injection ho with ho; subst ho
    obtain ⟨_, ho, g2⟩ := e2
    injection ho with ho; subst ho
    have := sent g1 hne
    have := sent g2 hne
    omega
  | balTransfer dst v =>
    intro a ha hne
    subst ha
    obtain ⟨_, ho, g1⟩ := e1
    injection ho with ho; subst ho
    obtain ⟨_, ho, g2⟩ := e2
    injection ho with ho; subst ho
    have := sent g1 hne
    have := sent g2 hne
    omega
  | claims k =>
    cases k with
    | mintClaim who v vest st =>
      obtain ⟨g1, _, g2⟩ := e1
      obtain ⟨g1', _, g2'⟩ := e2
      refine ⟨?_, by rw [(g2 who).1, if_pos rfl], funext fun x => ?_⟩
      · rw [g1', g1, Nat.mod_add_mod]; congr 1; omega
      · rw [(g2' x).1, (g2 x).1]; split <;> rfl
    | _ => exact absurd hk (by simp [Call.retry])
  | sendSwapUmp a b w f =>
    have g1 : s'.xt.sent = _ := e1
    have g2 : s''.xt.sent = _ := e2
    exact ⟨_, by rw [g2, g1]⟩
  | bondExtra v =>
    intro a ha
    subst ha
    obtain ⟨_, ho, g2, _⟩ := e2
    injection ho with ho; subst ho
    rw [bondValue, g2]; rfl
  | _ => exact absurd hk (by simp [Call.retry])

/-- Bob shields 10 twice, and the account of the shard has 20 more. -/
example : FreshBridge start ∧ (Call.shieldFunds shard7 [1, 2] 10).retry = .again ∧ bob ≠ shard7 ∧
    ∃ s' s'', exec cfg (run cfg start bridgeHistory) (shield bob 10) = .ok s' ∧ exec cfg s' (shield bob 10) = .ok s'' ∧
      s''.bal.free shard7 = (run cfg start bridgeHistory).bal.free shard7 + 20 := by
  have h1 := exec_ok_of_isOk (c := cfg) (s := run cfg start bridgeHistory) (op := shield bob 10) (by decide +kernel)
  have h2 := exec_ok_of_isOk (c := cfg) (s := step cfg (run cfg start bridgeHistory) (shield bob 10)) (op := shield bob 10) (by decide +kernel)
  exact ⟨⟨fun _ => rfl, fun _ => rfl, fun _ => rfl⟩, rfl, by decide +kernel, _, _, h1, h2,
    C159_again cfg start bridgeHistory ⟨fun _ => rfl, fun _ => rfl, fun _ => rfl⟩ (.signed bob) (.shieldFunds shard7 [1, 2] 10) rfl _ _ h1 h2 bob rfl (by decide +kernel)⟩

end Verif
