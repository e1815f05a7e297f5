import Verif.Props.Locality
import Verif.Props.Refusal

/-!
# C125, C126: the reason of a refusal is local, too

A call that fails in one state fails with the same error in every state that looks the same to it.
-/

namespace Verif

open Demo

theorem signer_unsigned {o : Origin} {P : AccountId → Prop} (h : ∀ a, o ≠ .signed a) : Signer o P = True :=
  propext ⟨fun _ => True.intro, fun _ a ha => absurd ha (h a)⟩

theorem needPay_local {c : Cfg} {s t : Chain} {src dst : AccountId} {v : Nat} (h1 : Place.same s t (.money src))
    (h2 : Place.same s t (.money dst)) : needPay c s src dst v = needPay c t src dst v := by
  unfold needPay
  simp only [h1.1, h1.2, h2.1]

theorem configInEffect_local {s t : Chain} {i : ShardId} (h : Place.same s t (.shard i)) (n : Nat) :
    configInEffect s i n = configInEffect t i n := by
  unfold configInEffect
  rw [h.2.1]

theorem rightEnclave_local {s t : Chain} {i : ShardId} {a : AccountId} (hb : s.block = t.block)
    (h1 : Place.same s t (.shard i)) (h2 : Place.same s t (.enclaves a)) : RightEnclave s i a = RightEnclave t i a := by
  unfold RightEnclave fingerprintInEffect
  simp only [configInEffect_local h1, h2.1, hb]

theorem hasPlace_local {s t : Chain} {i : ShardId} {a : AccountId} (h1 : Place.same s t (.shard i)) :
    HasPlace s i a = HasPlace t i a := by
  unfold HasPlace statusOf
  simp only [h1.1]

theorem needEnclaveOf_local {s t : Chain} {o : Origin} {i : ShardId} (hb : s.block = t.block)
    (h1 : Place.same s t (.shard i)) (h2 : ∀ a, o = .signed a → Place.same s t (.enclaves a)) :
    needEnclaveOf s o i = needEnclaveOf t o i := by
  unfold needEnclaveOf
  cases o with
  | signed a =>
    simp only [signer_signed, rightEnclave_local hb h1 (h2 a rfl), hasPlace_local h1, (h2 a rfl).1]
  | _ => simp only [signer_unsigned, ne_eq, reduceCtorEq, not_false_eq_true, implies_true]

theorem needClaim_local {c : Cfg} {s t : Chain} {P : EthAddr → Prop} {d : AccountId} (h1 : Place.same s t .claims)
    (h2 : Place.same s t (.schedules d)) : needClaim c s P d = needClaim c t P d := by
  obtain ⟨e1, e2, e3, e4, e5⟩ := h1
  have h2 : s.bal.schedules d = t.bal.schedules d := h2
  unfold needClaim
  simp only [e1, e2, e3, h2]

/-- The conditions of a call are the same in two states that look the same to it. -/
theorem conditions_local {c : Cfg} {s t : Chain} {o : Origin} {k : Call} (hk : k.cannotTell c s t o) :
    conditions c s o k = conditions c t o k := by
  obtain ⟨hn, hb, hk⟩ := hk
  have hc : ∀ x ∈ k.changes c s o, x.same s t := fun x hx => hk x (.inl hx)
  have hr : ∀ x ∈ k.consults o, x.same s t := fun x hx => hk x (.inr hx)
  clear hk
  cases k with
  | bond v =>
    cases o with
    | signed a => listed at hc hr; have h := hc.1; simp only [Place.same] at h; simp only [conditions, signer_signed, h]
    | _ => simp only [conditions, signer_unsigned, ne_eq, reduceCtorEq, not_false_eq_true, implies_true]
  | bondExtra v =>
    cases o with
    | signed a =>
      listed at hc hr; have h := hc.1; simp only [Place.same] at h hr; simp only [conditions, signer_signed, h, hr]
    | _ => simp only [conditions, signer_unsigned, ne_eq, reduceCtorEq, not_false_eq_true, implies_true]
  | unbond v =>
    cases o with
    | signed a =>
      listed at hc hr; obtain ⟨h1, h2⟩ := hc; simp only [Place.same] at h1 h2; simp only [conditions, signer_signed, h1, h2, hn]
    | _ => simp only [conditions, signer_unsigned, ne_eq, reduceCtorEq, not_false_eq_true, implies_true, hn]
  | updateOther a => listed at hc; simp only [Place.same] at hc; simp only [conditions, hc]
  | withdrawUnbonded =>
    cases o with
    | signed a => listed at hc; have h := hc.1; simp only [Place.same] at h; simp only [conditions, signer_signed, h, hn]
    | _ => simp only [conditions, signer_unsigned, ne_eq, reduceCtorEq, not_false_eq_true, implies_true]
  | registerSgxEnclave p u m =>
    listed at hr
    obtain ⟨h1, h2, h3, h4⟩ := hr
    simp only [Place.same] at h1 h2
    cases m <;> simp only [conditions, needAttestation, hn, h1, h2, h3, h4]
  | unregisterSovereignEnclave a => listed at hc; simp only [conditions, hc.1, hn]
  | unregisterProxiedEnclave p => listed at hc; simp only [conditions, hc.2 p rfl, hn]
  | registerQuotingEnclave => simp only [conditions, needSignedDocument, hn]
  | registerTcbInfo => simp only [conditions, needSignedDocument, hn]
  | setSecurityFlags => rfl
  | invoke => rfl
  | confirmProcessedParentchainBlock i =>
    listed at hc
    exact needEnclaveOf_local hb hc fun a ha => by subst ha; exact hr _ (by simp [Call.consults, Origin.own])
  | shieldFunds i x v =>
    cases o with
    | signed a =>
      simp only [conditions]
      rw [needPay_local (hc _ (by simp [Call.changes, Origin.own, sending])) (hc _ (by simp [Call.changes, Origin.own, sending]))]
    | _ => rfl
  | unshieldFunds i b v h =>
    have h1 : s.br.executed h = t.br.executed h := hc (.unshielding h) (by simp [Call.changes])
    simp only [conditions]
    rw [needEnclaveOf_local hb (hc _ (by simp [Call.changes])) fun a ha => by
        subst ha; exact hr _ (by simp [Call.consults, Origin.own]),
      needPay_local (c := c) (v := v) (hc (.money i) (by simp [Call.changes, sending])) (hc (.money b) (by simp [Call.changes, sending])), h1]
  | publishHash x topics d =>
    cases o with
    | signed a =>
      have h1 := (hr (.enclaves a) (by simp [Call.consults, Origin.own])).1
      simp only [conditions, signer_signed]
      have h2 : (∀ e, s.tx.sovereign a = some e → HasPlace s e.mrEnclave a) = ∀ e, t.tx.sovereign a = some e → HasPlace t e.mrEnclave a := by
        rw [← h1]
        refine forall_congr fun e => propext (forall_congr' fun he => ?_)
        rw [hasPlace_local (hc (.shard e.mrEnclave) (by simp [Call.changes, Origin.own, ownShard, he]))]
      rw [h2, h1]
    | _ => simp only [conditions, signer_unsigned, ne_eq, reduceCtorEq, not_false_eq_true, implies_true]
  | updateShardConfig i cfg d =>
    listed at hc
    cases o with
    | signed a =>
      have h1 := (hr (.enclaves a) (by simp [Call.consults, Origin.own])).1
      simp only [conditions, signer_signed, h1, configInEffect_local hc, hasPlace_local hc, hb]
    | _ => simp only [conditions, signer_unsigned, ne_eq, reduceCtorEq, not_false_eq_true, implies_true]
  | purgeEnclave i a => listed at hc; simp only [conditions, hc.1]
  | confirmImportedSidechainBlock i anc cand =>
    listed at hc
    simp only [conditions]
    rw [needEnclaveOf_local hb hc fun a ha => by subst ha; exact hr _ (by simp [Call.consults, Origin.own]), hc.2.2]
    have hp : ∀ a, Primary s i a = Primary t i a := by
      intro a; unfold Primary; simp only [statusOf, hc.1]
    simp only [hp]
  | addToWhitelist q fp => listed at hc; simp only [Place.same] at hc; simp only [conditions, hc]
  | removeFromWhitelist q fp => listed at hc; simp only [Place.same] at hc; simp only [conditions, hc]
  | updateOracle n q b =>
    have h0 : s.orc.whitelist q = t.orc.whitelist q := hr (.whitelist q) (by simp [Call.consults])
    cases o with
    | signed a =>
      have h1 := (hr (.enclaves a) (by simp [Call.consults, Origin.own])).1
      simp only [conditions, signer_signed, h0, h1]
    | _ => simp only [conditions, signer_unsigned, ne_eq, reduceCtorEq, not_false_eq_true, implies_true]
  | updateExchangeRate q p r =>
    have h0 : s.orc.whitelist q = t.orc.whitelist q := hr (.whitelist q) (by simp [Call.consults])
    cases o with
    | signed a =>
      have h1 := (hr (.enclaves a) (by simp [Call.consults, Origin.own])).1
      simp only [conditions, signer_signed, h0, h1]
    | _ => simp only [conditions, signer_unsigned, ne_eq, reduceCtorEq, not_false_eq_true, implies_true]
  | claims q =>
    have h0 : Place.same s t .claims := hc .claims (by cases q <;> simp [Call.changes])
    have h0' := h0
    obtain ⟨e1, e2, e3, e4, e5⟩ := h0'
    cases q with
    | claim d g =>
      simp only [conditions, e4]
      rw [needClaim_local h0 (hc (.schedules d) (by simp [Call.changes]))]
    | claimAttest d g st =>
      simp only [conditions, StatementOk, e4]
      rw [needClaim_local h0 (hc (.schedules d) (by simp [Call.changes]))]
    | attest st =>
      cases o with
      | signed a =>
        simp only [conditions, StatementOk, e4, e5, signer_signed]
        rw [needClaim_local h0 (hc (.schedules a) (by simp [Call.changes, Origin.own]))]
      | _ => simp only [conditions, signer_unsigned, ne_eq, reduceCtorEq, not_false_eq_true, implies_true]
    | mintClaim => simp only [conditions, e2]
    | moveClaim => rfl
  | registerReserveAsset i loc =>
    listed at hc hr
    simp only [Place.same] at hr
    simp only [conditions, hc.1, hr]
  | unregisterReserveAsset i => listed at hc; simp only [conditions, hc.1]
  | sendSwapUmp => listed at hc; simp only [Place.same] at hc; simp only [conditions, hc]
  | balTransfer d v =>
    cases o with
    | signed a =>
      simp only [conditions]
      rw [needPay_local (hc _ (by simp [Call.changes, Origin.own, sending])) (hc _ (by simp [Call.changes, Origin.own, sending]))]
    | _ => rfl

/-- The same, for errors. -/
theorem error_iff_of_cannotTell {c : Cfg} {s t : Chain} (hs : StatusOk s) (ht : StatusOk t) {o : Origin} {k : Call}
    (hk : k.cannotTell c s t o) (e : Err) : exec c s (.ext o k) = .error e ↔ exec c t (.ext o k) = .error e := by
  rw [conditions_checks hs o k e, conditions_checks ht o k e, conditions_local hk]

/-- **C125** In two states of any two histories that agree in the clock, what is listed as consulted and what may be
changed, a call is refused for the same reason. The hypotheses are met by the example below. -/
theorem C125_same_error (c : Cfg) (s0 t0 : Chain) (ops ops' : List Op) (h0 : FreshBridge s0) (h0' : FreshBridge t0)
    (o : Origin) (k : Call) (hk : k.cannotTell c (run c s0 ops) (run c t0 ops') o) (e : Err) :
    exec c (run c s0 ops) (.ext o k) = .error e ↔ exec c (run c t0 ops') (.ext o k) = .error e :=
  error_iff_of_cannotTell (statusOk_run (statusOk_fresh h0) ops) (statusOk_run (statusOk_fresh h0') ops') hk e

/-- **C126** Of two unrelated calls, each fails for the same reason whether the other one is included before it or not.
The hypotheses are met by the example below. -/
theorem C126_any_order_error (c : Cfg) (s0 : Chain) (ops : List Op) (h0 : FreshBridge s0) (o₁ o₂ : Origin) (k₁ k₂ : Call)
    (h : Unrelated c (run c s0 ops) o₁ k₁ o₂ k₂) (e : Err) :
    (exec c (run c s0 (ops ++ [.ext o₁ k₁])) (.ext o₂ k₂) = .error e ↔ exec c (run c s0 ops) (.ext o₂ k₂) = .error e) ∧
    (exec c (run c s0 (ops ++ [.ext o₂ k₂])) (.ext o₁ k₁) = .error e ↔ exec c (run c s0 ops) (.ext o₁ k₁) = .error e) := by
  have hok := fun l => statusOk_run (c := c) (statusOk_fresh h0) l
  refine ⟨(error_iff_of_cannotTell (hok _) (hok _) ?_ e).symm, (error_iff_of_cannotTell (hok _) (hok _) ?_ e).symm⟩
  · rw [run_snoc]; exact step_cannotTell h
  · rw [run_snoc]; exact step_cannotTell h.symm

/-- **C126** The reason of a refusal cannot be changed by calls included before, as long as they do not change what the
call looks at. -/
theorem C126_undisturbed_error (c : Cfg) (s0 : Chain) (ops : List Op) (h0 : FreshBridge s0) (o : Origin) (k : Call)
    (l : List (Origin × Call))
    (h : NeverChanges c (fun x => x ∈ k.changes c (run c s0 ops) o ∨ x ∈ k.consults o) (run c s0 ops) l) (e : Err) :
    exec c (run c s0 (ops ++ l.map fun p => .ext p.1 p.2)) (.ext o k) = .error e ↔ exec c (run c s0 ops) (.ext o k) = .error e := by
  obtain ⟨h1, h2, h3⟩ := neverChanges_same h
  have hok := fun l => statusOk_run (c := c) (statusOk_fresh h0) l
  refine (error_iff_of_cannotTell (hok _) (hok _) ?_ e).symm
  rw [run_append]
  exact ⟨h1.symm, h2.symm, h3⟩

/-- C125, C126: Alice asks for too much, is refused, and Bob's bonding does not matter for that. -/
example : FreshBridge start ∧
    let s := run cfg start [enroll alice 7, shield bob 100]
    let k := Call.unshieldFunds shard7 carol 101 hash1
    Unrelated cfg s (.signed alice) k (.signed bob) (.bond 100) ∧
    k.cannotTell cfg s (run cfg start ([enroll alice 7, shield bob 100] ++ [.ext (.signed bob) (.bond 100)])) (.signed alice) ∧
    NeverChanges cfg (fun x => x ∈ k.changes cfg s (.signed alice) ∨ x ∈ k.consults (.signed alice)) s [(.signed bob, .bond 100)] ∧
    exec cfg s (.ext (.signed alice) k) = .error (.bal .fundsUnavailable) := by
  have hu : Unrelated cfg (run cfg start [enroll alice 7, shield bob 100]) (.signed alice) (.unshieldFunds shard7 carol 101 hash1)
      (.signed bob) (.bond 100) := unrelated_of_lists (by decide +kernel) (by decide +kernel)
  refine ⟨⟨fun _ => rfl, fun _ => rfl, fun _ => rfl⟩, hu, ?_, ⟨?_, True.intro⟩, errorOf_some (by decide +kernel)⟩
  · rw [run_snoc]; exact step_cannotTell hu.symm
  · decide +kernel

end Verif
