import Verif.Spec.Outsider
import Verif.Props.Weights
import Verif.Props.Teerdays
import Verif.Proofs.Currency
import Verif.Proofs.TeerexInv
import Verif.Proofs.BridgeInv
import Verif.Spec.DemoBridge

/-!
# What an account without a role can do: C178
-/

namespace Verif

open Demo EnclaveBridge Scale

theorem outsider_guarded {c : Cfg} {s s' : Chain} {a : AccountId} {k : Call} (h : exec c s (.ext (.signed a) k) = .ok s')
    (ho : Outsider c s a) : s'.br.status = s.br.status ∧ s'.br.config = s.br.config ∧ s'.br.executed = s.br.executed ∧
      s'.sc = s.sc ∧ s'.orc = s.orc ∧ s'.cl = s.cl ∧ s'.ar = s.ar ∧ s'.xt = s.xt ∧
      s'.tx.allowDebug = s.tx.allowDebug ∧ s'.tx.allowSkip = s.tx.allowSkip := by
  obtain ⟨he, hp, ha, hs, hm⟩ := ho
  have entered : ∀ {shard b e l}, ¬ Entered s (.signed a) shard b e l := by
    rintro shard b e l ⟨h1, h2, _⟩
    cases h1; rw [he] at h2; cases h2
  cases k with
  | bond v => obtain ⟨_, _, _, _, rfl⟩ := Teerdays.bond_ok.mp h; exact ⟨rfl, rfl, rfl, rfl, rfl, rfl, rfl, rfl, rfl, rfl⟩
  | bondExtra v => obtain ⟨_, _, _, _, _, _, rfl⟩ := Teerdays.bondExtra_ok.mp h; exact ⟨rfl, rfl, rfl, rfl, rfl, rfl, rfl, rfl, rfl, rfl⟩
  | unbond v => obtain ⟨_, _, _, _, _, _, _, _, rfl⟩ := Teerdays.unbond_ok.mp h; exact ⟨rfl, rfl, rfl, rfl, rfl, rfl, rfl, rfl, rfl, rfl⟩
  | updateOther v => obtain ⟨_, _, _, _, rfl⟩ := Teerdays.updateOther_ok.mp h; exact ⟨rfl, rfl, rfl, rfl, rfl, rfl, rfl, rfl, rfl, rfl⟩
  | withdrawUnbonded => obtain ⟨_, _, _, _, _, _, rfl⟩ := Teerdays.withdrawUnbonded_ok.mp h; exact ⟨rfl, rfl, rfl, rfl, rfl, rfl, rfl, rfl, rfl, rfl⟩
  | registerSgxEnclave =>
    obtain ⟨_, e, _, _, _, _, _, (⟨_, rfl⟩ | ⟨_, g, _, rfl⟩)⟩ := Teerex.registerSgxEnclave_ok.mp h <;>
      exact ⟨rfl, rfl, rfl, rfl, rfl, rfl, rfl, rfl, rfl, rfl⟩
  | unregisterSovereignEnclave b =>
    obtain ⟨_, _, _, _, _, rfl⟩ := Teerex.unregisterSovereignEnclave_ok.mp h; exact ⟨rfl, rfl, rfl, rfl, rfl, rfl, rfl, rfl, rfl, rfl⟩
  | unregisterProxiedEnclave b =>
    obtain ⟨_, _, _, _, _, rfl⟩ := Teerex.unregisterProxiedEnclave_ok.mp h; exact ⟨rfl, rfl, rfl, rfl, rfl, rfl, rfl, rfl, rfl, rfl⟩
  | registerQuotingEnclave =>
    obtain ⟨_, _, _, _, rfl⟩ := Teerex.registerQuotingEnclave_ok.mp h; exact ⟨rfl, rfl, rfl, rfl, rfl, rfl, rfl, rfl, rfl, rfl⟩
  | registerTcbInfo =>
    obtain ⟨_, f, _, _, _, rfl⟩ := Teerex.registerTcbInfo_ok.mp h; exact ⟨rfl, rfl, rfl, rfl, rfl, rfl, rfl, rfl, rfl, rfl⟩
  | setSecurityFlags => obtain ⟨h1, _⟩ := Teerex.setSecurityFlags_ok.mp h; cases h1
  | invoke shard cy => obtain ⟨_, _, rfl⟩ := (invoke_ok (cy := cy)).mp h; exact ⟨rfl, rfl, rfl, rfl, rfl, rfl, rfl, rfl, rfl, rfl⟩
  | confirmProcessedParentchainBlock shard => obtain ⟨_, _, _, h1, _⟩ := confirmProcessed_ok.mp h; exact absurd h1 entered
  | shieldFunds shard => obtain ⟨_, _, _, hb, rfl⟩ := shieldFunds_ok.mp h; exact ⟨rfl, rfl, rfl, rfl, rfl, rfl, rfl, rfl, rfl, rfl⟩
  | unshieldFunds shard ben _ hash => obtain ⟨_, _, _, h1, _⟩ := unshieldFunds_ok.mp h; exact absurd h1 entered
  | publishHash hash topics data =>
    obtain ⟨_, e, _, h1, h2, _⟩ := publishHash_ok.mp h
    cases h1; rw [he] at h2; cases h2
  | updateShardConfig shard =>
    rcases updateShardConfig_ok.mp h with ⟨h1, _⟩ | ⟨_, _, _, h1, h2, _⟩
    · cases h1
    · cases h1; rw [he] at h2; cases h2
  | purgeEnclave shard => obtain ⟨_, h1, _⟩ := purgeEnclave_ok.mp h; cases h1
  | confirmImportedSidechainBlock shard => obtain ⟨_, _, _, _, h1, _⟩ := Sidechain.confirmImported_ok.mp h; exact absurd h1 entered
  | addToWhitelist src => obtain ⟨h1, _⟩ := Teeracle.addToWhitelist_ok.mp h; cases h1
  | removeFromWhitelist src fp => obtain ⟨h1, _⟩ := Teeracle.removeFromWhitelist_ok.mp h; cases h1
  | updateOracle name src =>
    obtain ⟨_, _, h1, h2, _⟩ := Teeracle.updateOracle_ok.mp h
    cases h1; rw [he] at h2; cases h2
  | updateExchangeRate src pair r =>
    obtain ⟨_, _, h1, h2, _⟩ := Teeracle.updateExchangeRate_ok.mp h
    cases h1; rw [he] at h2; cases h2
  | claims q =>
    cases q with
    | claim d sig => obtain ⟨_, h1, _⟩ := Claims.claim_ok.mp h; cases h1
    | claimAttest d sig st => obtain ⟨_, h1, _⟩ := Claims.claimAttest_ok.mp h; cases h1
    | attest st =>
      obtain ⟨_, _, _, h1, h2, _⟩ := Claims.attest_ok.mp h
      cases h1; rw [hp] at h2; cases h2
    | mintClaim => obtain ⟨_, h1, _⟩ := Claims.mintClaim_ok.mp h; cases h1
    | moveClaim =>
      obtain ⟨h1 | h1, _⟩ := Claims.moveClaim_ok.mp h
      · rw [hm] at h1; cases h1
      · cases h1
  | registerReserveAsset i l => obtain ⟨h1, _⟩ := AssetRegistry.registerReserveAsset_ok.mp h; rw [ha] at h1; cases h1
  | unregisterReserveAsset i => obtain ⟨_, h1, _⟩ := AssetRegistry.unregisterReserveAsset_ok.mp h; rw [ha] at h1; cases h1
  | sendSwapUmp => obtain ⟨_, h1, _⟩ := XcmTransactor.sendSwapUmp_ok.mp h; rw [hs] at h1; cases h1
  | balTransfer dst => obtain ⟨_, _, _, hb, rfl⟩ := balTransfer_ok.mp h; exact ⟨rfl, rfl, rfl, rfl, rfl, rfl, rfl, rfl, rfl, rfl⟩

theorem guarded_same {s s' : Chain} {x : Slot} (hx : x.guarded = true)
    (h : s'.br.status = s.br.status ∧ s'.br.config = s.br.config ∧ s'.br.executed = s.br.executed ∧
      s'.sc = s.sc ∧ s'.orc = s.orc ∧ s'.cl = s.cl ∧ s'.ar = s.ar ∧ s'.xt = s.xt ∧
      s'.tx.allowDebug = s.tx.allowDebug ∧ s'.tx.allowSkip = s.tx.allowSkip) : x.same s s' := by
  obtain ⟨h1, h2, h3, h4, h5, h6, h7, h8, h9, h10⟩ := h
  cases x <;> simp [Slot.guarded] at hx <;> simp only [Slot.same, h1, h2, h3, h4, h5, h6, h7, h9, h10]

theorem own_td_signer {a b : AccountId} {k : Call} (h : OwnTdCall b (.ext (.signed a) k)) : b = a := by
  rcases h with ⟨_, h⟩ | ⟨_, h⟩ | ⟨_, h⟩ | h <;> · cases h; rfl

/-- **C178.** A call of an account without a role changes no entry but those it may change, in the listed ways; it takes no money
from anybody else, locks none of theirs and sends no message to the relay chain. -/
theorem C178_outsider {c : Cfg} {s s' : Chain} {a : AccountId} {k : Call} (h : exec c s (.ext (.signed a) k) = .ok s')
    (ho : Outsider c s a) :
    (∀ x : Slot, x.same s s' ∨ OutsiderMay c s s' a x) ∧ (∀ b, b ≠ a → s.bal.free b ≤ s'.bal.free b ∧ tdLock s' b = tdLock s b) ∧
      s'.xt.sent = s.xt.sent := by
  have hg := outsider_guarded h ho
  refine ⟨fun x => ?_, fun b hb => ?_, by rw [hg.2.2.2.2.2.2.2.1]⟩
  · cases hx : x.guarded with
    | true => exact .inl (guarded_same hx hg)
    | false =>
      cases x with
      | teerDayBonds b =>
        by_cases hb : b = a
        · subst hb; exact .inr .bond
        · have hno : ¬ OwnTdCall b (.ext (.signed a) k) := fun hc => hb (own_td_signer hc)
          obtain ⟨_, _, _, h1⟩ := C09_foreign_operations c s s' b _ hno h
          rcases h1 with h1 | ⟨_, h1⟩
          · exact .inl h1.symm
          · cases hs : s.td.bonds b with
            | none => rw [hs] at h1; exact .inl (by simp [Slot.same, hs, h1])
            | some v =>
              rw [hs] at h1
              refine .inr (.update b v _ hs h1 rfl fun hv => ?_)
              simp only [Bond.update, satAdd]
              omega
      | pendingUnlock b =>
        by_cases hb : b = a
        · subst hb; exact .inr .unlock
        · have hno : ¬ OwnTdCall b (.ext (.signed a) k) := fun hc => hb (own_td_signer hc)
          exact .inl (C09_foreign_operations c s s' b _ hno h).2.1.symm
      | sovereignEnclaves b =>
        rcases sovereign_effect h b with h1 | ⟨_, _, _, e, h1, _, _, _, _, h2, _, _, h3, h4⟩ | ⟨_, e, _, h1, h2, h3⟩
        · exact .inl h1.symm
        · cases h1; exact .inr (.sovereign _ e h4 h2 h3)
        · exact .inr (.staleSovereign b e h1 h2 h3)
      | proxiedEnclaves p =>
        rcases proxied_effect h p with h1 | ⟨_, _, _, e, h1, _, _, _, _, h2, _, _, _, _, h4⟩ | ⟨_, e, _, h1, h2, h3⟩
        · exact .inl h1.symm
        · simp only [Op.ext.injEq, Origin.signed.injEq] at h1
          refine .inr (.proxied p _ e h1.1.symm h4 (h1.1 ▸ h2))
        · exact .inr (.staleProxied p e h1 h2 h3)
      | tcbInfo f =>
        rcases (collateral_effect h).2 f with h1 | ⟨_, d, g, ch, i, _, h1, h2⟩
        · exact .inl h1.symm
        · exact .inr (.tcb f i d g ch h1 h2)
      | quotingEnclave =>
        rcases (collateral_effect h).1 with h1 | ⟨_, d, g, ch, _, h1⟩
        · exact .inl h1.symm
        · exact .inr (.identity d g ch h1)
      | _ => simp [Slot.guarded] at hx
  · refine ⟨Nat.le_of_not_lt fun hlt => ?_,
      (C09_foreign_operations c s s' b _ (fun hc => hb (own_td_signer hc)) h).2.2.1⟩
    rcases free_decrease h b hlt with ⟨_, h1⟩ | ⟨_, h1⟩ | ⟨d, _, _, _, h1, ⟨e, h2, _⟩, _⟩
    · cases h1; exact hb rfl
    · cases h1
    · cases h1; rw [ho.enclave] at h2; cases h2

theorem same_trans {s t u : Chain} {x : Slot} (h1 : x.same s t) (h2 : x.same t u) : x.same s u := by
  cases x <;> exact Eq.trans h1 h2

/-- The account stays without a role unless it registers an enclave. -/
theorem outsider_stays {c : Cfg} {s s' : Chain} {a b : AccountId} {k : Call} (h : exec c s (.ext (.signed a) k) = .ok s')
    (ha : Outsider c s a) (hb : Outsider c s b) (hk : ∀ proof url m, k ≠ .registerSgxEnclave proof url m) :
    Outsider c s' b := by
  refine ⟨?_, ?_, hb.assets, hb.swaps, hb.moves⟩
  · rcases sovereign_effect h b with h1 | ⟨_, _, _, _, h1, _⟩ | ⟨_, _, _, _, _, h1⟩
    · rw [h1]; exact hb.enclave
    · cases h1; exact absurd rfl (hk _ _ _)
    · exact h1
  · rw [(outsider_guarded h ha).2.2.2.2.2.1]; exact hb.preclaim

/-- What is no call leaves everything but money, time and foreign assets as it is. -/
theorem no_call_same {c : Cfg} {s s' : Chain} {op : Op} (h : exec c s op = .ok s') (hn : ∀ o k, op ≠ .ext o k) (x : Slot) :
    x.same s s' ∧ s'.tx = s.tx ∧ s'.cl = s.cl := by
  cases op with
  | ext o k => exact absurd rfl (hn o k)
  | addVesting a v =>
    simp only [exec] at h; split at h
    · cases h; exact ⟨by cases x <;> rfl, rfl, rfl⟩
    · cases h
  | _ => cases h; exact ⟨by cases x <;> rfl, rfl, rfl⟩

/-- However many accounts without a role act together, however often, and whatever the chain does besides carrying out calls: as
long as none of them registers an enclave, the entries of shards, sidechains, oracles, claims and registered assets and the security
flags stay as they are. -/
theorem C178_together {c : Cfg} {s : Chain} (P : AccountId → Prop) (hP : ∀ a, P a → Outsider c s a) (ops : List Op)
    (hops : ∀ o k, .ext o k ∈ ops → ∃ a, o = .signed a ∧ P a ∧ ∀ proof url m, k ≠ .registerSgxEnclave proof url m)
    (x : Slot) (hx : x.guarded = true) : x.same s (run c s ops) := by
  refine (run_invariant' (P := fun t => (∀ a, P a → Outsider c t a) ∧ x.same s t)
    (Q := fun op => ∀ o k, op = .ext o k → ∃ a, o = .signed a ∧ P a ∧ ∀ proof url m, k ≠ .registerSgxEnclave proof url m)
    (fun t t' op hq ht h => ?_) ⟨hP, by cases x <;> rfl⟩ ops (fun op hop o k he => hops o k (he ▸ hop))).2
  by_cases hn : ∃ o k, op = .ext o k
  · obtain ⟨o, k, rfl⟩ := hn
    obtain ⟨a, rfl, ha, hk⟩ := hq o k rfl
    exact ⟨fun b hb => outsider_stays h (ht.1 a ha) (ht.1 b hb) hk,
      same_trans ht.2 (guarded_same hx (outsider_guarded h (ht.1 a ha)))⟩
  · have h1 := no_call_same h (fun o k he => hn ⟨o, k, he⟩) x
    exact ⟨fun b hb => ⟨by rw [h1.2.1]; exact (ht.1 b hb).enclave, by rw [h1.2.2]; exact (ht.1 b hb).preclaim,
      (ht.1 b hb).assets, (ht.1 b hb).swaps, (ht.1 b hb).moves⟩, same_trans ht.2 h1.1⟩

/-- Nor does anybody who is not one of them lose money, unless another pallet slashes them. -/
theorem C178_money {c : Cfg} {s : Chain} (P : AccountId → Prop) (hP : ∀ a, P a → Outsider c s a) (ops : List Op)
    (hops : ∀ o k, .ext o k ∈ ops → ∃ a, o = .signed a ∧ P a ∧ ∀ proof url m, k ≠ .registerSgxEnclave proof url m)
    (b : AccountId) (hb : ¬ P b) (hs : ∀ n, .slash b n ∉ ops) : s.bal.free b ≤ (run c s ops).bal.free b := by
  refine (run_invariant' (P := fun t => (∀ a, P a → Outsider c t a) ∧ s.bal.free b ≤ t.bal.free b)
    (Q := fun op => (∀ o k, op = .ext o k → ∃ a, o = .signed a ∧ P a ∧ ∀ proof url m, k ≠ .registerSgxEnclave proof url m) ∧
      ∀ n, op ≠ .slash b n)
    (fun t t' op hq ht h => ?_) ⟨hP, Nat.le_refl _⟩ ops
    (fun op hop => ⟨fun o k he => hops o k (he ▸ hop), fun n he => hs n (he ▸ hop)⟩)).2
  by_cases hn : ∃ o k, op = .ext o k
  · obtain ⟨o, k, rfl⟩ := hn
    obtain ⟨a, rfl, ha, hk⟩ := hq.1 o k rfl
    exact ⟨fun x hx => outsider_stays h (ht.1 a ha) (ht.1 x hx) hk,
      Nat.le_trans ht.2 ((C178_outsider h (ht.1 a ha)).2.1 b fun he => hb (he ▸ ha)).1⟩
  · have h1 := no_call_same h (fun o k he => hn ⟨o, k, he⟩) .quotingEnclave
    refine ⟨fun x hx => ⟨by rw [h1.2.1]; exact (ht.1 x hx).enclave, by rw [h1.2.2]; exact (ht.1 x hx).preclaim,
      (ht.1 x hx).assets, (ht.1 x hx).swaps, (ht.1 x hx).moves⟩, Nat.le_trans ht.2 (Nat.le_of_not_lt fun hlt => ?_)⟩
    rcases free_decrease h b hlt with ⟨_, h2⟩ | ⟨n, h2⟩ | ⟨_, _, _, _, h2, _⟩
    · exact hn ⟨_, _, h2⟩
    · exact hq.2 n h2
    · exact hn ⟨_, _, h2⟩

/-- Alice runs an enclave, has configured a shard and has bonded 400. -/
def outsiderStart : Chain :=
  run cfg start [enroll alice 7, .ext (.signed alice) (.updateShardConfig shard7 (config 7) 0), .ext (.signed alice) (.bond 400)]

/-- Bob shields, brings Alice's bond up to date, tries to pay himself out of the shard, and at last removes Alice's enclave, which
did not renew its attestation. -/
def outsiderOps : List Op :=
  [shield bob 100, .newBlock 1000, .ext (.signed bob) (.updateOther alice), unshield bob bob 60 hash1, .newBlock 172800000,
   .ext (.signed bob) (.unregisterSovereignEnclave alice)]

/-- Bob and Carol have no role, Alice has one; all but the payout are accepted; the bond of Alice grew older, the enclave is gone. -/
example : (∀ a, a = bob ∨ a = carol → Outsider cfg outsiderStart a) ∧ ¬ Outsider cfg outsiderStart alice ∧
    (∀ o k, .ext o k ∈ outsiderOps → ∃ a, o = .signed a ∧ (a = bob ∨ a = carol) ∧
      ∀ proof url m, k ≠ .registerSgxEnclave proof url m) ∧
    (∀ n, .slash alice n ∉ outsiderOps) ∧
    (accepted cfg outsiderStart outsiderOps).length = 5 ∧ (Slot.shardConfig shard7).guarded = true ∧
    (outsiderStart.td.bonds alice).map (·.tokentime) = some 0 ∧
    ((run cfg outsiderStart outsiderOps).td.bonds alice).map (·.tokentime) = some 400000 ∧
    (run cfg outsiderStart outsiderOps).tx.sovereign alice = none ∧
    ((run cfg outsiderStart outsiderOps).br.config shard7).isSome := by
  refine ⟨?_, fun h => ?_, ?_, ?_, by decide +kernel, rfl, by decide +kernel, by decide +kernel, by decide +kernel,
    by decide +kernel⟩
  · rintro a (rfl | rfl) <;> exact ⟨by decide +kernel, rfl, rfl, rfl, rfl⟩
  · exact absurd h.enclave (by decide +kernel)
  · intro o k h
    simp only [outsiderOps, shield, unshield, List.mem_cons, Op.ext.injEq, reduceCtorEq, false_or, List.not_mem_nil, or_false] at h
    rcases h with ⟨rfl, rfl⟩ | ⟨rfl, rfl⟩ | ⟨rfl, rfl⟩ | ⟨rfl, rfl⟩ <;>
      exact ⟨bob, rfl, .inl rfl, fun _ _ _ h => nomatch h⟩
  · intro n h
    simp [outsiderOps, shield, unshield] at h

/-- A single call of Bob's, as in `C178_outsider`. -/
example : ∃ s', exec cfg outsiderStart (.ext (.signed bob) (.updateOther alice)) = .ok s' ∧ Outsider cfg outsiderStart bob :=
  ⟨_, exec_ok_of_isOk (op := .ext (.signed bob) (.updateOther alice)) (s := outsiderStart) (c := cfg) (by decide +kernel),
    by decide +kernel, rfl, rfl, rfl, rfl⟩

end Verif
