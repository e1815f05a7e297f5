import Verif.Spec.RootLimits
import Verif.Props.Weights
import Verif.Proofs.Currency
import Verif.Proofs.BridgeInv
import Verif.Spec.DemoBridge

/-!
# What root cannot change by the calls of these pallets: C180
-/

namespace Verif

open Demo EnclaveBridge Scale

/-- **C180.** A call made by root moves, locks and creates no money and changes no bond, no enclave, no collateral, no
executed payout, no finalised block and nothing an oracle reported. -/
theorem C180_root {c : Cfg} {s s' : Chain} {k : Call} (h : exec c s (.ext .root k) = .ok s') :
    s'.bal = s.bal ∧ ∀ x : Slot, x.beyondRoot = true → x.same s s' := by
  suffices H : s'.bal = s.bal ∧ s'.td = s.td ∧ s'.tx.sovereign = s.tx.sovereign ∧ s'.tx.proxied = s.tx.proxied ∧
      s'.tx.qe = s.tx.qe ∧ s'.tx.tcb = s.tx.tcb ∧ s'.br.executed = s.br.executed ∧ s'.sc = s.sc ∧
      s'.orc.rates = s.orc.rates ∧ s'.orc.blobs = s.orc.blobs by
    obtain ⟨h0, h1, h2, h3, h4, h5, h6, h7, h8, h9⟩ := H
    refine ⟨h0, fun x hx => ?_⟩
    cases x <;> simp [Slot.beyondRoot] at hx <;> simp only [Slot.same, h1, h2, h3, h4, h5, h6, h7, h8, h9]
  cases k with
  | bond v => obtain ⟨_, h1, _⟩ := Teerdays.bond_ok.mp h; cases h1
  | bondExtra v => obtain ⟨_, _, h1, _⟩ := Teerdays.bondExtra_ok.mp h; cases h1
  | unbond v => obtain ⟨_, _, _, h1, _⟩ := Teerdays.unbond_ok.mp h; cases h1
  | updateOther v => obtain ⟨_, _, h1, _⟩ := Teerdays.updateOther_ok.mp h; cases h1
  | withdrawUnbonded => obtain ⟨_, _, _, h1, _⟩ := Teerdays.withdrawUnbonded_ok.mp h; cases h1
  | registerSgxEnclave => obtain ⟨_, _, h1, _⟩ := Teerex.registerSgxEnclave_ok.mp h; cases h1
  | unregisterSovereignEnclave b => obtain ⟨_, _, h1, _⟩ := Teerex.unregisterSovereignEnclave_ok.mp h; cases h1
  | unregisterProxiedEnclave b => obtain ⟨_, _, h1, _⟩ := Teerex.unregisterProxiedEnclave_ok.mp h; cases h1
  | registerQuotingEnclave => obtain ⟨_, _, h1, _⟩ := Teerex.registerQuotingEnclave_ok.mp h; cases h1
  | registerTcbInfo => obtain ⟨_, _, _, h1, _⟩ := Teerex.registerTcbInfo_ok.mp h; cases h1
  | setSecurityFlags => obtain ⟨_, rfl⟩ := Teerex.setSecurityFlags_ok.mp h; exact ⟨rfl, rfl, rfl, rfl, rfl, rfl, rfl, rfl, rfl, rfl⟩
  | invoke shard cy => obtain ⟨_, h1, _⟩ := (invoke_ok (cy := cy)).mp h; cases h1
  | confirmProcessedParentchainBlock shard => obtain ⟨_, _, _, ⟨h1, _⟩, _⟩ := confirmProcessed_ok.mp h; cases h1
  | shieldFunds shard => obtain ⟨_, _, h1, _⟩ := shieldFunds_ok.mp h; cases h1
  | unshieldFunds shard ben _ hash => obtain ⟨_, _, _, ⟨h1, _⟩, _⟩ := unshieldFunds_ok.mp h; cases h1
  | publishHash hash topics data => obtain ⟨_, _, _, h1, _⟩ := publishHash_ok.mp h; cases h1
  | updateShardConfig shard =>
    rcases updateShardConfig_ok.mp h with ⟨_, rfl⟩ | ⟨_, _, _, h1, _⟩
    · exact ⟨rfl, rfl, rfl, rfl, rfl, rfl, rfl, rfl, rfl, rfl⟩
    · cases h1
  | purgeEnclave shard => obtain ⟨_, _, _, _, rfl⟩ := purgeEnclave_ok.mp h; exact ⟨rfl, rfl, rfl, rfl, rfl, rfl, rfl, rfl, rfl, rfl⟩
  | confirmImportedSidechainBlock shard => obtain ⟨_, _, _, _, ⟨h1, _⟩, _⟩ := Sidechain.confirmImported_ok.mp h; cases h1
  | addToWhitelist src =>
    obtain ⟨_, _, _, _, rfl⟩ := Teeracle.addToWhitelist_ok.mp h; exact ⟨rfl, rfl, rfl, rfl, rfl, rfl, rfl, rfl, rfl, rfl⟩
  | removeFromWhitelist src fp =>
    obtain ⟨_, _, rfl⟩ := Teeracle.removeFromWhitelist_ok.mp h; exact ⟨rfl, rfl, rfl, rfl, rfl, rfl, rfl, rfl, rfl, rfl⟩
  | updateOracle name src => obtain ⟨_, _, h1, _⟩ := Teeracle.updateOracle_ok.mp h; cases h1
  | updateExchangeRate src pair r => obtain ⟨_, _, h1, _⟩ := Teeracle.updateExchangeRate_ok.mp h; cases h1
  | claims q =>
    cases q with
    | claim d sig => obtain ⟨_, h1, _⟩ := Claims.claim_ok.mp h; cases h1
    | claimAttest d sig st => obtain ⟨_, h1, _⟩ := Claims.claimAttest_ok.mp h; cases h1
    | attest st => obtain ⟨_, _, _, h1, _⟩ := Claims.attest_ok.mp h; cases h1
    | mintClaim => obtain ⟨_, _, _, rfl⟩ := Claims.mintClaim_ok.mp h; exact ⟨rfl, rfl, rfl, rfl, rfl, rfl, rfl, rfl, rfl, rfl⟩
    | moveClaim => obtain ⟨_, rfl⟩ := Claims.moveClaim_ok.mp h; exact ⟨rfl, rfl, rfl, rfl, rfl, rfl, rfl, rfl, rfl, rfl⟩
  | registerReserveAsset i l =>
    obtain ⟨_, _, _, _, _, rfl⟩ := AssetRegistry.registerReserveAsset_ok.mp h; exact ⟨rfl, rfl, rfl, rfl, rfl, rfl, rfl, rfl, rfl, rfl⟩
  | unregisterReserveAsset i =>
    obtain ⟨_, _, _, rfl⟩ := AssetRegistry.unregisterReserveAsset_ok.mp h; exact ⟨rfl, rfl, rfl, rfl, rfl, rfl, rfl, rfl, rfl, rfl⟩
  | sendSwapUmp => obtain ⟨_, _, _, _, _, _, rfl⟩ := XcmTransactor.sendSwapUmp_ok.mp h; exact ⟨rfl, rfl, rfl, rfl, rfl, rfl, rfl, rfl, rfl, rfl⟩
  | balTransfer dst => obtain ⟨_, _, h1, _⟩ := balTransfer_ok.mp h; cases h1

/-- So it is for any number of calls made by root, accepted or refused, in any number of blocks. -/
theorem C180_history {c : Cfg} {s : Chain} (ops : List Op) (hops : ∀ op ∈ ops, (∃ k, op = .ext .root k) ∨ ∃ dt, op = .newBlock dt) :
    (run c s ops).bal = s.bal ∧ ∀ x : Slot, x.beyondRoot = true → x.same s (run c s ops) := by
  refine run_invariant' (P := fun t => t.bal = s.bal ∧ ∀ x : Slot, x.beyondRoot = true → x.same s t)
    (fun t t' op hq ht h => ?_) ⟨rfl, fun x _ => by cases x <;> rfl⟩ ops hops
  rcases hq with ⟨k, rfl⟩ | ⟨dt, rfl⟩
  · have h1 := C180_root h
    refine ⟨h1.1.trans ht.1, fun x hx => ?_⟩
    have h2 := ht.2 x hx; have h3 := h1.2 x hx
    cases x <;> exact Eq.trans h2 h3
  · cases h
    exact ⟨ht.1, fun x hx => by have := ht.2 x hx; cases x <;> exact this⟩

/-- Alice has bonded and runs an enclave that configured shard 7 and acts for it. -/
def rootLimitsStart : Chain :=
  run cfg start [.ext (.signed alice) (.bond 400), enroll alice 7, .ext (.signed alice) (.updateShardConfig shard7 (config 7) 0)]

/-- Root forbids to skip attestation, takes the shard away from Alice, and tries to pay out of its vault. -/
def rootLimitsOps : List Op :=
  [.ext .root (.setSecurityFlags false false), .newBlock 6, .ext .root (.updateShardConfig shard7 (config 8) 0),
   .ext .root (.purgeEnclave shard7 alice), .ext .root (.unshieldFunds shard7 bob 10 hash1)]

/-- All but the payout are accepted; the bond and the enclave stay. -/
example : (∀ op ∈ rootLimitsOps, (∃ k, op = .ext .root k) ∨ ∃ dt, op = .newBlock dt) ∧
    (accepted cfg rootLimitsStart rootLimitsOps).length = 4 ∧
    (run cfg rootLimitsStart rootLimitsOps).tx.allowSkip = false ∧ rootLimitsStart.tx.allowSkip = true ∧
    ((run cfg rootLimitsStart rootLimitsOps).td.bonds alice).map (·.value) = some 400 ∧
    ((run cfg rootLimitsStart rootLimitsOps).tx.sovereign alice).isSome ∧
    statusOf (run cfg rootLimitsStart rootLimitsOps) shard7 = [] ∧ statusOf rootLimitsStart shard7 ≠ [] ∧
    (Slot.sovereignEnclaves alice).beyondRoot = true ∧ (Slot.shardStatus shard7).beyondRoot = false := by
  refine ⟨?_, by decide +kernel, by decide +kernel, by decide +kernel, by decide +kernel, by decide +kernel, by decide +kernel,
    by decide +kernel, rfl, rfl⟩
  intro op hop
  simp only [rootLimitsOps, List.mem_cons, List.not_mem_nil, or_false] at hop
  rcases hop with rfl | rfl | rfl | rfl | rfl
  · exact .inl ⟨_, rfl⟩
  · exact .inr ⟨_, rfl⟩
  · exact .inl ⟨_, rfl⟩
  · exact .inl ⟨_, rfl⟩
  · exact .inl ⟨_, rfl⟩

end Verif
