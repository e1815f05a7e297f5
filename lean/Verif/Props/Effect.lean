import Verif.Spec.Effect
import Verif.Props.Accept
import Verif.Props.Locality
import Verif.Props.News

/-!
# What each call does, exactly: C155
-/

namespace Verif

open Demo EnclaveBridge

/-! ### The effect of an accepted call -/

theorem setLock_becomes {s s' : Chain} {a : AccountId} {v : Nat} (h : s'.bal = s.bal.setLock .teerdays a v) :
    LockBecomes s s' a (lockSetTo s a v) := by
  unfold LockBecomes lockSetTo tdLock
  rw [h]
  unfold Balances.setLock
  split
  · exact ⟨rfl, rfl, fun _ _ => rfl⟩
  · exact ⟨rfl, by simp, fun id hid => by simp [upd, hid]⟩

theorem plainAdd_wraps {c : Cfg} {max a b r : Nat} (h : plainAdd c max a b = .ok r) : r = (a + b) % (max + 1) := by
  rcases plainAdd_eq_ok.mp h with ⟨h1, rfl⟩ | ⟨_, _, rfl⟩
  · exact (Nat.mod_eq_of_lt (by omega)).symm
  · rfl

theorem transfer_sent {c : Cfg} {s s' : Chain} {src dst : AccountId} {v : Nat} {b : Balances}
    (h : s.bal.transfer c.ed c.balMax src dst v = .ok b) (hb : s'.bal = b) : Sent c s s' src dst v := by
  subst hb
  unfold Balances.transfer at h
  unfold Sent
  split at h
  · rename_i hz
    injection h with h
    rw [if_pos hz, ← h]
    exact ⟨fun _ => ⟨rfl, rfl⟩, rfl, rfl, rfl⟩
  · rename_i hz
    rw [if_neg hz]
    have hne : src ≠ dst := fun h => hz (.inr h)
    repeat' split at h
    all_goals first | cases h | skip
    injection h with h
    rw [← h]
    refine ⟨fun _ => ⟨rfl, rfl⟩, ?_, ?_, ?_⟩
    · simp [upd, hne, restAfter, leavesDust]
    · simp
    · simp [restAfter, leavesDust]

theorem entered_acted {s s' : Chain} {o : Origin} {shard : ShardId} {a : AccountId} {e : SgxEnclave} {l : List SignerStatus}
    (hs : StatusOk s) (h : Entered s o shard a e l) (h1 : s'.br.status shard = some l)
    (h2 : s'.br.config shard = dueConfig s shard s.block shard) : Acted s s' shard a := by
  obtain ⟨h3, h4, h5, h6, h7⟩ := h
  refine ⟨?_, ?_⟩
  · rw [Noted, h1, h6, ← h5]
    exact congrArg some (touchList_eq (hs shard).2.1)
  · rw [h2]
    simp only [dueConfig, upd_same]
    congr 1

theorem paid_settled {c : Cfg} {s s1 s' : Chain} {g : EthAddr} {dest : AccountId} {due : Nat} {bal : Balances}
    (hp : Claims.Paid c s g dest due bal) (hb : s'.bal = bal)
    (h1 : s1 = { s with cl := { s.cl with
          total := s.cl.total - due
          claims := upd s.cl.claims g none
          vesting := upd s.cl.vesting g none
          signing := upd s.cl.signing g none } })
    (h2 : s'.cl.claims = s1.cl.claims) (h3 : s'.cl.vesting = s1.cl.vesting) (h4 : s'.cl.signing = s1.cl.signing)
    (h5 : s'.cl.total = s1.cl.total) : Settled c s s' g dest due := by
  subst h1
  have hd : ∀ b, b = s.bal.depositCreating c.ed c.balMax dest due →
      b.free dest = s.bal.free dest + arriving c s dest due ∧ b.issuance = s.bal.issuance + arriving c s dest due ∧
      (∀ id, b.lock id dest = s.bal.lock id dest) ∧ b.schedules dest = s.bal.schedules dest := by
    rintro b rfl
    unfold Balances.depositCreating arriving
    by_cases hz : due = 0
    · subst hz; simp
    · simp only [hz, false_or]
      split
      · simp
      · simp
  obtain ⟨e1, e2, e3, e4⟩ := hd _ rfl
  refine ⟨fun x => ?_, h5, ?_⟩
  · rw [h2, h3, h4]; exact ⟨rfl, rfl, rfl⟩
  rw [hb]
  unfold Claims.Paid at hp
  unfold Vests
  rw [hb]
  split at hp
  · rename_i v hv
    obtain ⟨hn, hp⟩ := hp
    rw [hv]
    simp only
    unfold Balances.addVesting at hp
    split at hp
    · rename_i hz
      cases hp
      rw [if_pos hz]
      exact ⟨e1, e2, e3 _, e3 _, e4, e3 _⟩
    · rename_i hz
      rw [if_neg hz]
      split at hp
      · cases hp
      split at hp
      · cases hp
      cases hp
      refine ⟨e1, e2, ?_, ?_, ?_⟩
      · exact e3 .teerdays
      · exact e3 .other
      · by_cases hl : v.lockedAt s.block = 0 <;> simp [Balances.updateVesting, e4, hn, hl]
  · rename_i hv
    subst hp
    rw [hv]
    exact ⟨e1, e2, e3 _, e3 _, e4, e3 _⟩

theorem moveEntry_eq {V : Type} (m : EthAddr → Option V) (old new x : EthAddr) :
    Claims.moveEntry m old new x = relocated m old new x := by
  unfold Claims.moveEntry relocated
  cases h : m old with
  | none =>
    simp only [ne_eq, not_true_eq_false, and_false, if_false]
    split
    · rename_i hx; rw [hx, h]
    · rfl
  | some v =>
    simp only [ne_eq, reduceCtorEq, not_false_eq_true, and_true, upd]

/-- An accepted call has the effect that the specification says. -/
theorem effect_of_ok {c : Cfg} {s s' : Chain} (hs : StatusOk s) {o : Origin} {k : Call}
    (h : exec c s (.ext o k) = .ok s') : Effect c s s' o k := by
  cases k with
  | bond v =>
    obtain ⟨a, ho, _, _, rfl⟩ := Teerdays.bond_ok.mp h
    exact ⟨a, ho, upd_same .., setLock_becomes rfl⟩
  | bondExtra v =>
    obtain ⟨a, b, ho, _, _, hb, rfl⟩ := Teerdays.bondExtra_ok.mp h
    refine ⟨a, ho, ?_, ?_⟩
    · simp only [upd_same, bondNow_of hb, bondValue_of hb, satAdd, bondNow]
    · rw [← bondValue_of hb]; exact setLock_becomes rfl
  | unbond v =>
    obtain ⟨a, b, due, ho, _, _, hb, hd, rfl⟩ := Teerdays.unbond_ok.mp h
    refine ⟨a, ho, ?_, ?_⟩
    · simp only [upd_same]
      rw [(tokentimeLeft_of (c := c) hb v).1, bondValue_of hb]
    · simp only [upd_same, plainAdd_wraps hd, bondValue_of hb, Option.some.injEq, Prod.mk.injEq, true_and]
      omega
  | updateOther a =>
    obtain ⟨_, b, _, hb, rfl⟩ := Teerdays.updateOther_ok.mp h
    simp only [Effect, upd_same, bondNow_of hb]
  | withdrawUnbonded =>
    obtain ⟨a, due, amount, ho, hp, _, rfl⟩ := Teerdays.withdrawUnbonded_ok.mp h
    refine ⟨a, ho, upd_same .., ?_⟩
    simp only [LockBecomes, tdLock, pendingAmount, hp, Option.elim_some]
    split
    · simp only [Balances.removeLock, upd_same]
      exact ⟨trivial, by omega, fun id hid => by simp [upd, hid]⟩
    · unfold Balances.setLock
      split
      · omega
      · simp only [upd_same]
        exact ⟨trivial, by omega, fun id hid => by simp [upd, hid]⟩
  | registerSgxEnclave proof url m =>
    obtain ⟨a, e, ho, _, _, h3, h4, h5, _, (⟨h7, _, rfl⟩ | ⟨h7, rfl⟩)⟩ := register_iff.mp h
    · refine ⟨a, e, ho, h3, h4, h5, ?_⟩
      simp [Enrolled, isProxied_eq, h7]
    · refine ⟨a, e, ho, h3, h4, h5, ?_⟩
      simp only [Enrolled, isProxied_eq, h7, if_true, true_and]
      rintro ⟨f, r, g⟩ rfl
      simp [upd]
  | unregisterSovereignEnclave a =>
    obtain ⟨_, _, _, _, _, rfl⟩ := Teerex.unregisterSovereignEnclave_ok.mp h
    exact ⟨upd_same .., fun _ _ => rfl⟩
  | unregisterProxiedEnclave a =>
    obtain ⟨_, _, _, _, _, rfl⟩ := Teerex.unregisterProxiedEnclave_ok.mp h
    exact ⟨rfl, upd_same .., fun x _ hx => by simp [upd, hx]⟩
  | registerQuotingEnclave =>
    obtain ⟨_, _, _, hq, rfl⟩ := Teerex.registerQuotingEnclave_ok.mp h
    exact (signedIdentity_iff.mp hq).2
  | registerTcbInfo =>
    obtain ⟨_, f, t, _, ht, rfl⟩ := Teerex.registerTcbInfo_ok.mp h
    exact ⟨f, t, (signedTcbInfo_iff.mp ht).2, upd_same .., fun f' hf => by simp [upd, hf]⟩
  | setSecurityFlags =>
    obtain ⟨_, rfl⟩ := Teerex.setSecurityFlags_ok.mp h
    exact ⟨rfl, rfl⟩
  | invoke shard cy => trivial
  | confirmProcessedParentchainBlock shard =>
    obtain ⟨a, e, l, he, rfl⟩ := confirmProcessed_ok.mp h
    exact ⟨a, he.1, entered_acted hs he (upd_same ..) rfl, rfl⟩
  | shieldFunds shard =>
    obtain ⟨a, _, ho, hb, rfl⟩ := shieldFunds_ok.mp h
    exact ⟨a, ho, transfer_sent hb rfl⟩
  | unshieldFunds shard ben _ hash =>
    obtain ⟨a, e, l, he, (⟨hn, b, n, hb, hp, rfl⟩ | ⟨k, n, hn, hp, rfl⟩)⟩ := unshieldFunds_ok.mp h
    · refine ⟨a, he.1, entered_acted hs he (upd_same ..) rfl, rfl, ?_⟩
      rw [hn]
      refine ⟨?_, transfer_sent hb rfl⟩
      simp [plainAdd_wraps hp, u64Max]
    · refine ⟨a, he.1, entered_acted hs he (upd_same ..) rfl, rfl, ?_⟩
      rw [hn]
      refine ⟨?_, ⟨rfl, fun _ => rfl⟩, ⟨rfl, fun _ => rfl⟩, rfl⟩
      simp [plainAdd_wraps hp, u64Max]
  | publishHash hash topics data =>
    obtain ⟨a, e, l, ho, he, hl, _, _, _, rfl⟩ := publishHash_ok.mp h
    refine ⟨a, e, ho, he, ?_, rfl, rfl⟩
    rw [Noted, hl]
    exact (upd_same ..).trans (congrArg some (touchList_eq (hs _).2.1))
  | updateShardConfig shard cfg d =>
    have hc : newConfig c s shard cfg d = configured c s shard cfg d := rfl
    rcases updateShardConfig_ok.mp h with ⟨ho, rfl⟩ | ⟨a, e, l, ho, he, _, hl, _, rfl⟩
    · exact ⟨(upd_same ..).trans (congrArg some hc), rfl, .inl ⟨ho, rfl⟩⟩
    · refine ⟨(upd_same ..).trans (congrArg some hc), rfl, .inr ⟨a, e, ho, he, ?_⟩⟩
      rw [Noted, hl]
      exact (upd_same ..).trans (congrArg some (touchList_eq (hs _).2.1))
  | purgeEnclave shard =>
    obtain ⟨l, _, hl, _, rfl⟩ := purgeEnclave_ok.mp h
    refine ⟨?_, rfl, rfl⟩
    simp [statusOf, hl]
  | confirmImportedSidechainBlock shard =>
    obtain ⟨a, e, l, first, he, hf, hq⟩ := Sidechain.confirmImported_ok.mp h
    have hpr : Primary s shard a ↔ a = first.signer := (primary_iff hs (he.2.2.2.1 ▸ hf)).symm
    rcases hq with ⟨hne, rfl⟩ | ⟨hne, _, rfl⟩
    · exact ⟨a, he.1, entered_acted hs he (upd_same ..) rfl, .inr ⟨fun h => hne (hpr.mp h), rfl⟩⟩
    · exact ⟨a, he.1, entered_acted hs he (upd_same ..) rfl, .inl ⟨hpr.mpr hne, upd_same ..⟩⟩
  | addToWhitelist src =>
    obtain ⟨_, _, _, _, rfl⟩ := Teeracle.addToWhitelist_ok.mp h
    exact upd_same ..
  | removeFromWhitelist src =>
    obtain ⟨_, _, rfl⟩ := Teeracle.removeFromWhitelist_ok.mp h
    exact upd_same ..
  | updateOracle name src =>
    obtain ⟨_, _, _, _, _, _, _, _, rfl⟩ := Teeracle.updateOracle_ok.mp h
    simp [Effect]
  | updateExchangeRate src pair new =>
    obtain ⟨_, _, _, _, _, _, rfl⟩ := Teeracle.updateExchangeRate_ok.mp h
    match new with
    | none => simp [Effect, Teeracle.storedRate]
    | some 0 => simp [Effect, Teeracle.storedRate]
    | some (r + 1) => simp [Effect, Teeracle.storedRate]
  | claims q =>
    cases q with
    | claim dest sig =>
      obtain ⟨g, _, hg, _, hp⟩ := Claims.claim_ok.mp h
      obtain ⟨due, bal, h1, _, h2, rfl⟩ := Claims.processClaim_ok.mp hp
      exact ⟨g, due, (ethRecover_iff ..).mp hg, h1, paid_settled h2 rfl rfl rfl rfl rfl rfl, rfl⟩
    | claimAttest dest sig st =>
      obtain ⟨g, _, hg, _, hp⟩ := Claims.claimAttest_ok.mp h
      obtain ⟨due, bal, h1, _, h2, rfl⟩ := Claims.processClaim_ok.mp hp
      exact ⟨g, due, (ethRecover_iff ..).mp hg, h1, paid_settled h2 rfl rfl rfl rfl rfl rfl, rfl⟩
    | attest st =>
      obtain ⟨a, g, s1, ho, hpre, _, hp, rfl⟩ := Claims.attest_ok.mp h
      obtain ⟨due, bal, h1, _, h2, rfl⟩ := Claims.processClaim_ok.mp hp
      exact ⟨a, g, due, ho, hpre, h1, paid_settled h2 rfl rfl rfl rfl rfl rfl, fun _ => rfl⟩
    | mintClaim who value v st =>
      obtain ⟨t, _, ht, rfl⟩ := Claims.mintClaim_ok.mp h
      refine ⟨plainAdd_wraps ht, rfl, fun x => ⟨rfl, ?_, ?_⟩⟩
      · cases v <;> simp [Claims.setSome, upd]
      · cases st <;> simp [Claims.setSome, upd]
    | moveClaim old new p =>
      obtain ⟨_, rfl⟩ := Claims.moveClaim_ok.mp h
      refine ⟨rfl, fun x => ⟨moveEntry_eq .., moveEntry_eq .., moveEntry_eq ..⟩, fun q => ?_⟩
      simp only [Claims.movedPreclaims]
      cases p with
      | none => simp
      | some p =>
        simp only [Option.some.injEq]
        by_cases hq : p = q
        · subst hq; split <;> simp_all
        · split <;> simp [upd, hq, Ne.symm hq]
  | registerReserveAsset i l =>
    obtain ⟨_, _, _, _, rfl⟩ := AssetRegistry.registerReserveAsset_ok.mp h
    exact ⟨fun _ => rfl, fun _ => rfl⟩
  | unregisterReserveAsset i =>
    obtain ⟨l, _, hl, rfl⟩ := AssetRegistry.unregisterReserveAsset_ok.mp h
    refine ⟨fun _ => rfl, fun x => ?_⟩
    simp only [hl, Option.some.injEq, upd, eq_comm]
  | sendSwapUmp =>
    obtain ⟨hash, _, _, _, _, hh, rfl⟩ := XcmTransactor.sendSwapUmp_ok.mp h
    simp only [Effect, ← XcmTransactor.construct_swapProgram]
    rfl
  | balTransfer dst =>
    obtain ⟨a, _, ho, hb, rfl⟩ := balTransfer_ok.mp h
    exact ⟨a, ho, transfer_sent hb rfl⟩

/-! ### The effect determines the result -/

/-- Two entries that the same proof establishes are equal. -/
theorem Attested.unique {c : Cfg} {s : Chain} {a : AccountId} {proof : Bytes} {e e' : SgxEnclave} (hm : e.method = e'.method)
    (hu : e.url = e'.url) (h : Attested c s a proof e) (h' : Attested c s a proof e') : e = e' := by
  obtain ⟨rd, mr, ms, ts, url, bm, m, st⟩ := e
  obtain ⟨rd', mr', ms', ts', url', bm', m', st'⟩ := e'
  simp only at hm hu
  subst hm hu
  cases m with
  | ias =>
    obtain ⟨r, h1, ⟨a1, a2, a3, a4, a5⟩, a6, _⟩ := h
    obtain ⟨r', h1', ⟨b1, b2, b3, b4, b5⟩, b6, _⟩ := h'
    have := (verifyIasReport_ok.mpr h1).symm.trans (verifyIasReport_ok.mpr h1')
    injection this with this
    subst this
    simp_all
  | dcap p =>
    obtain ⟨f, t, r, info, h1, ⟨a1, a2, a3, a4, a5⟩, a6, a7⟩ := h
    obtain ⟨f', t', r', info', h1', ⟨b1, b2, b3, b4, b5⟩, b6, b7⟩ := h'
    have := (verifyDcapQuote_ok.mpr h1).symm.trans (verifyDcapQuote_ok.mpr h1')
    injection this with this
    simp only [Prod.mk.injEq] at this
    obtain ⟨rfl, rfl, rfl⟩ := this
    rw [a6] at b6
    cases b6
    have hst := (firstDominated_iff.mpr a7).symm.trans (firstDominated_iff.mpr b7)
    simp_all
  | skip p =>
    obtain ⟨_, a1, a2, a3, a4, a5, a6, a7⟩ := h
    obtain ⟨_, b1, b2, b3, b4, b5, b6, b7⟩ := h'
    have e1 := Teerex.mrEnclaveOfProof_eq a2 a3
    have e2 := Teerex.mrEnclaveOfProof_eq b2 b3
    have e3 : rd = rd' := Subtype.ext (a1.trans b1.symm)
    have e4 : ms = ms' := Subtype.ext (a4.trans b4.symm)
    simp_all

theorem LockBecomes.same {s s' t : Chain} {a : AccountId} {v : Nat} (h : LockBecomes s s' a v) (h' : LockBecomes s t a v) :
    (Place.money a).same s' t := by
  obtain ⟨h1, h2, h3⟩ := h
  obtain ⟨h1', h2', h3'⟩ := h'
  refine ⟨h1.trans h1'.symm, fun id => ?_⟩
  by_cases hid : id = .teerdays
  · subst hid; exact h2.trans h2'.symm
  · exact (h3 id hid).trans (h3' id hid).symm

theorem Sent.same {c : Cfg} {s s' t : Chain} {src dst : AccountId} {v : Nat} (h : Sent c s s' src dst v)
    (h' : Sent c s t src dst v) : ∀ x, x ∈ sending c s src dst v → x.same s' t := by
  obtain ⟨h1, h2⟩ := h
  obtain ⟨h1', h2'⟩ := h'
  have h3 : s'.bal.free src = t.bal.free src ∧ s'.bal.free dst = t.bal.free dst ∧ s'.bal.issuance = t.bal.issuance := by
    split at h2
    · rename_i hz
      rw [if_pos hz] at h2'
      exact ⟨h2.1.trans h2'.1.symm, h2.2.1.trans h2'.2.1.symm, h2.2.2.trans h2'.2.2.symm⟩
    · rename_i hz
      rw [if_neg hz] at h2'
      exact ⟨h2.1.trans h2'.1.symm, h2.2.1.trans h2'.2.1.symm, h2.2.2.trans h2'.2.2.symm⟩
  intro x hx
  simp only [sending, List.mem_append, List.mem_cons, List.not_mem_nil, or_false] at hx
  obtain ((rfl | rfl) | hx) := hx
  · exact ⟨h3.1, fun id => (h1 id).1.trans (h1' id).1.symm⟩
  · exact ⟨h3.2.1, fun id => (h1 id).2.trans (h1' id).2.symm⟩
  · split at hx
    · obtain rfl := List.mem_singleton.mp hx; exact h3.2.2
    · cases hx

theorem Settled.same {c : Cfg} {s s' t : Chain} {g : EthAddr} {dest : AccountId} {due : Nat} (h : Settled c s s' g dest due)
    (h' : Settled c s t g dest due) :
    (s'.cl.claims = t.cl.claims ∧ s'.cl.total = t.cl.total ∧ s'.cl.vesting = t.cl.vesting ∧ s'.cl.signing = t.cl.signing) ∧
    (Place.money dest).same s' t ∧ (Place.schedules dest).same s' t ∧ Place.issuance.same s' t := by
  obtain ⟨a1, a2, a3, a4, a5, a6, a7⟩ := h
  obtain ⟨b1, b2, b3, b4, b5, b6, b7⟩ := h'
  have hv : s'.bal.schedules dest = t.bal.schedules dest ∧ s'.bal.lock .vesting dest = t.bal.lock .vesting dest := by
    unfold Vests at a7 b7
    split at a7
    · rename_i hv
      rw [hv] at b7
      exact ⟨a7.1.trans b7.1.symm, a7.2.trans b7.2.symm⟩
    · rename_i v hv
      rw [hv] at b7
      simp only at b7
      split at a7
      · rename_i hz
        rw [if_pos hz] at b7
        exact ⟨a7.1.trans b7.1.symm, a7.2.trans b7.2.symm⟩
      · rename_i hz
        rw [if_neg hz] at b7
        exact ⟨a7.1.trans b7.1.symm, a7.2.trans b7.2.symm⟩
  refine ⟨⟨funext fun x => (a1 x).1.trans (b1 x).1.symm, a2.trans b2.symm, funext fun x => (a1 x).2.1.trans (b1 x).2.1.symm,
    funext fun x => (a1 x).2.2.trans (b1 x).2.2.symm⟩, ⟨a3.trans b3.symm, fun id => ?_⟩, hv.1, a4.trans b4.symm⟩
  cases id with
  | teerdays => exact a5.trans b5.symm
  | vesting => exact hv.2
  | other => exact a6.trans b6.symm

theorem Acted.same {s s' t : Chain} {shard : ShardId} {a : AccountId} (h : Acted s s' shard a) (h' : Acted s t shard a) :
    s'.br.status shard = t.br.status shard ∧ s'.br.config shard = t.br.config shard :=
  ⟨h.1.trans h'.1.symm, h.2.trans h'.2.symm⟩

/-- Any state with the effect of an accepted call looks like the result of the call in all places that it may change. -/
theorem effect_determines {c : Cfg} {s s' t : Chain} (hs : StatusOk s) {o : Origin} {k : Call}
    (hx : exec c s (.ext o k) = .ok t) (he : Effect c s s' o k) : ∀ x, x ∈ k.changes c s o → x.same s' t := by
  have ht := effect_of_ok hs hx
  cases k with
  | bond v =>
    obtain ⟨a, rfl, h1, h2⟩ := he
    obtain ⟨_, ha, h1', h2'⟩ := ht
    cases ha
    listed
    exact ⟨h1.trans h1'.symm, h2.same h2'⟩
  | bondExtra v =>
    obtain ⟨a, rfl, h1, h2⟩ := he
    obtain ⟨_, ha, h1', h2'⟩ := ht
    cases ha
    listed
    exact ⟨h1.trans h1'.symm, h2.same h2'⟩
  | unbond v =>
    obtain ⟨a, rfl, h1, h2⟩ := he
    obtain ⟨_, ha, h1', h2'⟩ := ht
    cases ha
    listed
    exact ⟨h1.trans h1'.symm, h2.trans h2'.symm⟩
  | updateOther a =>
    listed
    exact Eq.trans he (Eq.symm ht)
  | withdrawUnbonded =>
    obtain ⟨a, rfl, h1, h2⟩ := he
    obtain ⟨_, ha, h1', h2'⟩ := ht
    cases ha
    listed
    exact ⟨h1.trans h1'.symm, h2.same h2'⟩
  | registerSgxEnclave proof url m =>
    obtain ⟨a, e, rfl, h1, h2, h3, h4⟩ := he
    obtain ⟨_, e', ha, h1', h2', h3', h4'⟩ := ht
    cases ha
    obtain rfl := h3.unique (h1.trans h1'.symm) (h2.trans h2'.symm) h3'
    listed
    unfold Enrolled at h4 h4'
    split at h4
    · rename_i hp
      rw [if_pos hp] at h4'
      exact ⟨h4.1.trans h4'.1.symm, fun x hx => (h4.2 x hx).trans (h4'.2 x hx).symm⟩
    · rename_i hp
      rw [if_neg hp] at h4'
      exact ⟨h4.1.trans h4'.1.symm, fun x hx => (h4.2 x hx).trans (h4'.2 x hx).symm⟩
  | unregisterSovereignEnclave a =>
    listed
    exact ⟨he.1.trans ht.1.symm, fun x hx => (he.2 x hx).trans (ht.2 x hx).symm⟩
  | unregisterProxiedEnclave p =>
    listed
    refine ⟨he.1.trans ht.1.symm, fun x hx => ?_⟩
    by_cases hxp : x = p
    · subst hxp; exact he.2.1.trans ht.2.1.symm
    · exact (he.2.2 x hx hxp).trans (ht.2.2 x hx hxp).symm
  | registerQuotingEnclave i g ch =>
    obtain ⟨_, q, _, hq, rfl⟩ := Teerex.registerQuotingEnclave_ok.mp hx
    listed
    have := (signedIdentity_iff (s := s).mpr ⟨(signedIdentity_iff.mp hq).1, he⟩).symm.trans hq
    injection this
  | registerTcbInfo i g ch =>
    obtain ⟨_, f, q, _, hq, rfl⟩ := Teerex.registerTcbInfo_ok.mp hx
    obtain ⟨f', q', h1, h2, h3⟩ := he
    have := (signedTcbInfo_iff (s := s).mpr ⟨(signedTcbInfo_iff.mp hq).1, h1⟩).symm.trans hq
    injection this with this
    cases this
    listed
    funext x
    by_cases hxf : x = f
    · subst hxf; exact h2.trans (upd_same ..).symm
    · exact (h3 x hxf).trans (by simp [upd, hxf])
  | setSecurityFlags =>
    listed
    exact ⟨he.2.trans ht.2.symm, he.1.trans ht.1.symm⟩
  | invoke shard cy =>
    listed
  | confirmProcessedParentchainBlock shard =>
    obtain ⟨a, rfl, h1, h2⟩ := he
    obtain ⟨_, ha, h1', h2'⟩ := ht
    cases ha
    listed
    exact ⟨(h1.same h1').1, (h1.same h1').2, h2.trans h2'.symm⟩
  | shieldFunds shard =>
    obtain ⟨a, rfl, h1⟩ := he
    obtain ⟨_, ha, h1'⟩ := ht
    cases ha
    exact h1.same h1'
  | unshieldFunds shard ben v hash =>
    obtain ⟨a, rfl, h1, h2, h3⟩ := he
    obtain ⟨_, ha, h1', h2', h3'⟩ := ht
    cases ha
    simp only [Call.changes, List.forall_mem_append]
    refine ⟨?_, ?_⟩
    · listed
      refine ⟨⟨(h1.same h1').1, (h1.same h1').2, h2.trans h2'.symm⟩, ?_⟩
      cases hn : s.br.executed hash with
      | none => rw [hn] at h3 h3'; exact h3.1.trans h3'.1.symm
      | some n => rw [hn] at h3 h3'; exact h3.1.trans h3'.1.symm
    · cases hn : s.br.executed hash with
      | none => rw [hn] at h3 h3'; exact h3.2.same h3'.2
      | some n =>
        rw [hn] at h3 h3'
        obtain ⟨a1, a2, a3⟩ := h3.2
        obtain ⟨b1, b2, b3⟩ := h3'.2
        intro x hx
        simp only [sending, List.mem_append, List.mem_cons, List.not_mem_nil, or_false] at hx
        obtain ((rfl | rfl) | hx) := hx
        · exact ⟨a1.1.symm.trans b1.1, fun id => (a1.2 id).symm.trans (b1.2 id)⟩
        · exact ⟨a2.1.symm.trans b2.1, fun id => (a2.2 id).symm.trans (b2.2 id)⟩
        · split at hx
          · obtain rfl := List.mem_singleton.mp hx; exact Eq.trans (Eq.symm a3) b3
          · cases hx
  | publishHash =>
    obtain ⟨a, e, rfl, h1, h2, h3, h4⟩ := he
    obtain ⟨_, e', ha, h1', h2', h3', h4'⟩ := ht
    cases ha
    rw [h1] at h1'
    cases h1'
    simp only [Call.changes, Origin.own, ownShard, h1]
    listed
    exact ⟨h2.trans h2'.symm, h3.trans h3'.symm, h4.trans h4'.symm⟩
  | updateShardConfig shard cfg d =>
    obtain ⟨h1, h2, h3⟩ := he
    obtain ⟨h1', h2', h3'⟩ := ht
    listed
    refine ⟨?_, h1.trans h1'.symm, h2.trans h2'.symm⟩
    rcases h3 with ⟨rfl, h3⟩ | ⟨a, e, rfl, h3, h4⟩
    · rcases h3' with ⟨_, h3'⟩ | ⟨a, e, ha, _⟩
      · exact h3.trans h3'.symm
      · cases ha
    · rcases h3' with ⟨ha, _⟩ | ⟨_, e', ha, h3', h4'⟩
      · cases ha
      · cases ha
        rw [h3] at h3'
        cases h3'
        exact h4.trans h4'.symm
  | purgeEnclave shard =>
    listed
    exact ⟨he.1.trans ht.1.symm, he.2.1.trans ht.2.1.symm, he.2.2.trans ht.2.2.symm⟩
  | confirmImportedSidechainBlock shard anc cand =>
    obtain ⟨a, rfl, h1, h2⟩ := he
    obtain ⟨_, ha, h1', h2'⟩ := ht
    cases ha
    listed
    refine ⟨(h1.same h1').1, (h1.same h1').2, ?_⟩
    rcases h2 with ⟨hp, h2⟩ | ⟨hp, h2⟩
    · rcases h2' with ⟨_, h2'⟩ | ⟨hp', _⟩
      · exact h2.trans h2'.symm
      · exact absurd hp hp'
    · rcases h2' with ⟨hp', _⟩ | ⟨_, h2'⟩
      · exact absurd hp' hp
      · exact h2.trans h2'.symm
  | addToWhitelist => listed; exact Eq.trans he (Eq.symm ht)
  | removeFromWhitelist => listed; exact Eq.trans he (Eq.symm ht)
  | updateOracle => listed; exact Eq.trans he (Eq.symm ht)
  | updateExchangeRate => listed; exact Eq.trans he (Eq.symm ht)
  | claims q =>
    cases q with
    | claim d sig =>
      obtain ⟨g, due, h1, h2, h3, h4⟩ := he
      obtain ⟨g', due', h1', h2', h3', h4'⟩ := ht
      obtain rfl := h1.unique h1'
      rw [h2] at h2'
      cases h2'
      obtain ⟨⟨e1, e2, e3, e4⟩, e5, e6, e7⟩ := h3.same h3'
      listed
      exact ⟨⟨e1, e2, e3, e4, h4.trans h4'.symm⟩, e5, e6, e7⟩
    | claimAttest d sig st =>
      obtain ⟨g, due, h1, h2, h3, h4⟩ := he
      obtain ⟨g', due', h1', h2', h3', h4'⟩ := ht
      obtain rfl := h1.unique h1'
      rw [h2] at h2'
      cases h2'
      obtain ⟨⟨e1, e2, e3, e4⟩, e5, e6, e7⟩ := h3.same h3'
      listed
      exact ⟨⟨e1, e2, e3, e4, h4.trans h4'.symm⟩, e5, e6, e7⟩
    | attest st =>
      obtain ⟨a, g, due, rfl, h1, h2, h3, h4⟩ := he
      obtain ⟨_, g', due', ha, h1', h2', h3', h4'⟩ := ht
      cases ha
      rw [h1] at h1'
      cases h1'
      rw [h2] at h2'
      cases h2'
      obtain ⟨⟨e1, e2, e3, e4⟩, e5, e6, e7⟩ := h3.same h3'
      listed
      exact ⟨⟨e1, e2, e3, e4, funext fun x => (h4 x).trans (h4' x).symm⟩, e7, e5, e6⟩
    | mintClaim =>
      obtain ⟨h1, h2, h3⟩ := he
      obtain ⟨h1', h2', h3'⟩ := ht
      listed
      exact ⟨funext fun x => (h3 x).1.trans (h3' x).1.symm, h1.trans h1'.symm, funext fun x => (h3 x).2.1.trans (h3' x).2.1.symm,
        funext fun x => (h3 x).2.2.trans (h3' x).2.2.symm, h2.trans h2'.symm⟩
    | moveClaim =>
      obtain ⟨h1, h3, h2⟩ := he
      obtain ⟨h1', h3', h2'⟩ := ht
      listed
      exact ⟨funext fun x => (h3 x).1.trans (h3' x).1.symm, h1.trans h1'.symm, funext fun x => (h3 x).2.1.trans (h3' x).2.1.symm,
        funext fun x => (h3 x).2.2.trans (h3' x).2.2.symm, funext fun x => (h2 x).trans (h2' x).symm⟩
  | registerReserveAsset =>
    listed
    exact ⟨funext fun x => (he.1 x).trans (ht.1 x).symm, funext fun x => (he.2 x).trans (ht.2 x).symm⟩
  | unregisterReserveAsset =>
    listed
    exact ⟨funext fun x => (he.1 x).trans (ht.1 x).symm, funext fun x => (he.2 x).trans (ht.2 x).symm⟩
  | sendSwapUmp => listed; exact Eq.trans he (Eq.symm ht)
  | balTransfer dst =>
    obtain ⟨a, rfl, h1⟩ := he
    obtain ⟨_, ha, h1'⟩ := ht
    cases ha
    exact h1.same h1'

/-- Two states with the same places announce the same. -/
theorem announces_unique {c : Cfg} {s s' t : Chain} {o : Origin} {k : Call} {n n' : News}
    (hx : exec c s (.ext o k) = .ok t) (hp : ∀ x : Place, x.same s' t)
    (hn : Announces c s s' o n k) (hn' : Announces c s t o n' k) : n = n' := by
  have h1 : ∀ a, tdLock s' a = tdLock t a := fun a => (hp (.money a)).2 .teerdays
  have h2 : s'.tx.qe = t.tx.qe := hp .quotingEnclave
  have h3 : ∀ i, statusOf s' i = statusOf t i := fun i => by simp only [statusOf, (hp (.shard i)).1]
  cases k with
  | bond v =>
    obtain ⟨a, rfl, rfl⟩ := hn
    obtain ⟨_, ha, rfl⟩ := hn'
    cases ha; rfl
  | bondExtra v =>
    obtain ⟨a, rfl, rfl⟩ := hn
    obtain ⟨_, ha, rfl⟩ := hn'
    cases ha; rfl
  | unbond v =>
    obtain ⟨a, b, rfl, e1, rfl, _⟩ := hn
    obtain ⟨_, b', ha, e2, rfl, _⟩ := hn'
    cases ha
    rw [show b = b' by omega]
  | withdrawUnbonded =>
    obtain ⟨a, rfl, rfl⟩ := hn
    obtain ⟨_, ha, rfl⟩ := hn'
    cases ha; rw [h1]
  | registerSgxEnclave proof url m =>
    obtain ⟨a, e, rfl, _, e1, e2, e3, rfl⟩ := hn
    obtain ⟨_, e', ha, _, e1', e2', e3', rfl⟩ := hn'
    cases ha
    rw [e3.unique (e1.trans e1'.symm) (e2.trans e2'.symm) e3']
  | registerQuotingEnclave =>
    obtain ⟨_, rfl⟩ := hn
    obtain ⟨_, rfl⟩ := hn'
    rw [h2]
  | registerTcbInfo =>
    obtain ⟨_, f0, q0, _, hq, _⟩ := Teerex.registerTcbInfo_ok.mp hx
    have hb := (signedTcbInfo_iff.mp hq).1
    obtain ⟨f, q, e1, _, rfl⟩ := hn
    obtain ⟨f', q', e1', _, rfl⟩ := hn'
    have := (signedTcbInfo_iff (s := s).mpr ⟨hb, e1⟩).symm.trans (signedTcbInfo_iff (s := s).mpr ⟨hb, e1'⟩)
    injection this with this
    cases this; rfl
  | unshieldFunds shard ben v hash =>
    rcases hn with ⟨e1, rfl⟩ | ⟨e1, rfl⟩
    · rcases hn' with ⟨_, rfl⟩ | ⟨e2, _⟩
      · rfl
      · exact absurd e1 e2
    · rcases hn' with ⟨e2, _⟩ | ⟨_, rfl⟩
      · exact absurd e2 e1
      · rfl
  | publishHash =>
    obtain ⟨a, e, rfl, e1, rfl⟩ := hn
    obtain ⟨_, e', ha, e1', rfl⟩ := hn'
    cases ha
    rw [e1] at e1'
    cases e1'; rfl
  | confirmImportedSidechainBlock shard anc cand =>
    obtain ⟨a, rfl, hn⟩ := hn
    obtain ⟨_, ha, hn'⟩ := hn'
    cases ha
    rw [h3] at hn
    rcases hn with ⟨e1, rfl⟩ | ⟨e1, rfl⟩
    · rcases hn' with ⟨_, rfl⟩ | ⟨e2, _⟩
      · rfl
      · exact absurd e1 e2
    · rcases hn' with ⟨e2, _⟩ | ⟨_, rfl⟩
      · exact absurd e2 e1
      · rfl
  | updateExchangeRate src pair rate =>
    rcases hn with ⟨r, rfl, e1, rfl⟩ | ⟨e1, rfl⟩
    · rcases hn' with ⟨r', hr, _, rfl⟩ | ⟨e2, _⟩
      · cases hr; rfl
      · rcases e2 with e2 | e2 <;> simp_all
    · rcases hn' with ⟨r, rfl, e2, _⟩ | ⟨_, rfl⟩
      · rcases e1 with e1 | e1 <;> simp_all
      · rfl
  | claims q =>
    cases q with
    | claim d sig =>
      obtain ⟨g, v, e1, e2, rfl⟩ := hn
      obtain ⟨g', v', e1', e2', rfl⟩ := hn'
      obtain rfl := e1.unique e1'
      have := e2.1.symm.trans e2'.1
      cases this; rfl
    | claimAttest d sig st =>
      obtain ⟨g, v, e1, e2, rfl⟩ := hn
      obtain ⟨g', v', e1', e2', rfl⟩ := hn'
      obtain rfl := e1.unique e1'
      have := e2.1.symm.trans e2'.1
      cases this; rfl
    | attest st =>
      obtain ⟨a, g, v, rfl, e1, e2, rfl⟩ := hn
      obtain ⟨_, g', v', ha, e1', e2', rfl⟩ := hn'
      cases ha
      rw [e1] at e1'
      cases e1'
      have := e2.1.symm.trans e2'.1
      cases this; rfl
    | mintClaim => exact Eq.trans hn (Eq.symm hn')
    | moveClaim => exact Eq.trans hn (Eq.symm hn')
  | unregisterReserveAsset i =>
    obtain ⟨l, e1, rfl⟩ := hn
    obtain ⟨l', e1', rfl⟩ := hn'
    rw [e1] at e1'
    cases e1'; rfl
  | sendSwapUmp =>
    obtain ⟨x, e1, rfl⟩ := hn
    obtain ⟨x', e1', rfl⟩ := hn'
    have := e1.symm.trans e1'
    injection this with this
    rw [this]
  | _ => exact Eq.trans hn (Eq.symm hn')

/-- States that agree in the clock, in all places and in the events are equal. -/
theorem chain_ext {s t : Chain} (h1 : s.now = t.now) (h2 : s.block = t.block) (hp : ∀ x : Place, x.same s t)
    {s0 : Chain} {n : News} (hs : n.Added s0 s) (ht : n.Added s0 t) : s = t := by
  obtain ⟨a1, a2, a3, a4, a5, a6, a7, a8⟩ := hs
  obtain ⟨b1, b2, b3, b4, b5, b6, b7, b8⟩ := ht
  have hbal : s.bal = t.bal := by
    have e1 : s.bal.free = t.bal.free := funext fun a => (hp (.money a)).1
    have e2 : s.bal.lock = t.bal.lock := funext fun id => funext fun a => (hp (.money a)).2 id
    have e3 : s.bal.schedules = t.bal.schedules := funext fun a => hp (.schedules a)
    have e4 : s.bal.issuance = t.bal.issuance := hp .issuance
    cases hs : s.bal; cases ht : t.bal; simp_all
  have htd : s.td = t.td := by
    have e1 : s.td.bonds = t.td.bonds := funext fun a => hp (.bond a)
    have e2 : s.td.pending = t.td.pending := funext fun a => hp (.pending a)
    have e3 := a1.trans b1.symm
    cases hs : s.td; cases ht : t.td; simp_all
  have htx : s.tx = t.tx := by
    have e1 : s.tx.sovereign = t.tx.sovereign := funext fun a => (hp (.enclaves a)).1
    have e2 : s.tx.proxied = t.tx.proxied := funext fun x => (hp (.enclaves x.registrar)).2 x rfl
    have e3 : s.tx.qe = t.tx.qe := hp .quotingEnclave
    have e4 : s.tx.tcb = t.tx.tcb := hp .platforms
    have e5 := (hp .flags).1
    have e6 := (hp .flags).2
    have e7 := a2.trans b2.symm
    cases hs : s.tx; cases ht : t.tx; simp_all
  have hbr : s.br = t.br := by
    have e1 : s.br.status = t.br.status := funext fun i => (hp (.shard i)).1
    have e2 : s.br.config = t.br.config := funext fun i => (hp (.shard i)).2.1
    have e3 : s.br.executed = t.br.executed := funext fun i => hp (.unshielding i)
    have e4 := a3.trans b3.symm
    cases hs : s.br; cases ht : t.br; simp_all
  have hsc : s.sc = t.sc := by
    have e1 : s.sc.latest = t.sc.latest := funext fun i => (hp (.shard i)).2.2
    have e2 := a4.trans b4.symm
    cases hs : s.sc; cases ht : t.sc; simp_all
  have horc : s.orc = t.orc := by
    have e1 : s.orc.rates = t.orc.rates := funext fun p => funext fun q => hp (.rate p q)
    have e2 : s.orc.blobs = t.orc.blobs := funext fun p => funext fun q => hp (.blob p q)
    have e3 : s.orc.whitelist = t.orc.whitelist := funext fun p => hp (.whitelist p)
    have e4 := a5.trans b5.symm
    cases hs : s.orc; cases ht : t.orc; simp_all
  have hcl : s.cl = t.cl := by
    obtain ⟨e1, e2, e3, e4, e5⟩ := hp .claims
    have e6 := a6.trans b6.symm
    cases hs : s.cl; cases ht : t.cl; simp_all
  have har : s.ar = t.ar := by
    obtain ⟨e1, e2⟩ := hp .registry
    have e6 := a7.trans b7.symm
    cases hs : s.ar; cases ht : t.ar; simp_all
  have hxt : s.xt = t.xt := by
    have e1 : s.xt.sent = t.xt.sent := hp .outbox
    have e6 := a8.trans b8.symm
    cases hs : s.xt; cases ht : t.xt; simp_all
  have has : s.assets = t.assets := funext fun i => hp (.asset i)
  cases s; cases t; simp_all

/-! ### C155 Every call does exactly what its description says -/

theorem exactly {c : Cfg} {s : Chain} (hs : StatusOk s) (o : Origin) (k : Call) (s' : Chain) :
    exec c s (.ext o k) = .ok s' ↔
      Accepts c s o k ∧ Effect c s s' o k ∧ s'.now = s.now ∧ s'.block = s.block ∧
      (∀ x, x ∉ k.changes c s o → x.same s s') ∧ ∃ n : News, Announces c s s' o n k ∧ n.Added s s' := by
  constructor
  · intro h
    obtain ⟨h1, h2, h3⟩ := C124_only_own_places c s s' o k h
    exact ⟨(accepts_iff hs o k).mp ⟨s', h⟩, effect_of_ok hs h, h1, h2, h3, C122_news c s s' o k h⟩
  · rintro ⟨h1, h2, h3, h4, h5, n, h6, h7⟩
    obtain ⟨t, ht⟩ := (accepts_iff hs o k).mpr h1
    obtain ⟨t1, t2, t3⟩ := C124_only_own_places c s t o k ht
    obtain ⟨n', t4, t5⟩ := C122_news c s t o k ht
    have hp : ∀ x : Place, x.same s' t := by
      intro x
      by_cases hx : x ∈ k.changes c s o
      · exact effect_determines hs ht h2 x hx
      · exact (h5 x hx).symm.trans (t3 x hx)
    obtain rfl := announces_unique ht hp h6 t4
    rw [chain_ext (h3.trans t1.symm) (h4.trans t2.symm) hp h7 t5]
    exact ht

/-- **C155** In every history, a call succeeds with a result exactly if its conditions hold and the result has the
described content in the places that the call may change, is unchanged everywhere else, and has the described new
events. -/
theorem C155_exactly (c : Cfg) (s0 : Chain) (ops : List Op) (h0 : FreshBridge s0) (o : Origin) (k : Call) (s' : Chain) :
    let s := run c s0 ops
    exec c s (.ext o k) = .ok s' ↔
      Accepts c s o k ∧ Effect c s s' o k ∧ s'.now = s.now ∧ s'.block = s.block ∧
      (∀ x, x ∉ k.changes c s o → x.same s s') ∧ ∃ n : News, Announces c s s' o n k ∧ n.Added s s' :=
  exactly (statusOk_run (c := c) (statusOk_fresh h0) ops) o k s'

/-- The description is met by a concrete state: Alice unshields 40 for Carol; so Carol has 40 more and the shard's account
is empty, since the rest is below the existential deposit. -/
example : FreshBridge start ∧ ∃ s', exec cfg (run cfg start bridgeHistory) (unshield alice carol 40 hash2) = .ok s' ∧
    Effect cfg (run cfg start bridgeHistory) s' (.signed alice) (.unshieldFunds shard7 carol 40 hash2) ∧
    s'.bal.free carol = (run cfg start bridgeHistory).bal.free carol + 40 := by
  have hx := exec_ok_of_isOk (c := cfg) (s := run cfg start bridgeHistory) (op := unshield alice carol 40 hash2)
    (by decide +kernel)
  have h0 : FreshBridge start := ⟨fun _ => rfl, fun _ => rfl, fun _ => rfl⟩
  exact ⟨h0, _, hx, ((C155_exactly cfg start bridgeHistory h0 _ _ _).mp hx).2.1, by decide +kernel⟩

/-- A state that has more than the described change is not a result. -/
example : exec cfg start (.ext (.signed alice) (.bond 100)) ≠
    .ok { step cfg start (.ext (.signed alice) (.bond 100)) with now := start.now + 1 } := fun h => by
  have := ((C155_exactly cfg start [] ⟨fun _ => rfl, fun _ => rfl, fun _ => rfl⟩ _ _ _).mp h).2.2.1
  exact absurd this (by decide +kernel)

end Verif
