import Verif.Spec.News
import Verif.Spec.DemoBridge
import Verif.Proofs.InvTeerex
import Verif.Proofs.InvBridge
import Verif.Proofs.InvRest
import Verif.Proofs.TeerdaysInv
import Verif.Proofs.TeerexInv
import Verif.Proofs.ClaimsInv

/-!
# What each call announces: C122, C123
-/

namespace Verif

open Demo EnclaveBridge

/-! ### C122 Events carry the data of their call -/

theorem bondNow_of {c : Cfg} {s : Chain} {a : AccountId} {b : Bond} (h : s.td.bonds a = some b) :
    b.update c.balMax s.now = bondNow c s a := by
  simp only [bondNow, tokentimeNow_def, h, Option.elim_some, bondValue]
  rfl

theorem tokentimeNow_of {c : Cfg} {s : Chain} {a : AccountId} {b : Bond} (h : s.td.bonds a = some b) :
    (b.update c.balMax s.now).tokentime = tokentimeNow c s a := by rw [bondNow_of h]; rfl

theorem bondValue_of {s : Chain} {a : AccountId} {b : Bond} (h : s.td.bonds a = some b) : b.value = bondValue s a := by
  simp [bondValue, h]

/-- What the pallet computes as the rest of the tokentime; the cap of the number type plays no role. -/
theorem tokentimeLeft_of {c : Cfg} {s : Chain} {a : AccountId} {b : Bond} (h : s.td.bonds a = some b) (v : Nat) :
    Teerdays.leftTokentime c.balMax (b.update c.balMax s.now) (b.value - v) = tokentimeLeft c s a v ∧
      tokentimeLeft c s a v ≤ tokentimeNow c s a := by
  have hm : tokentimeNow c s a ≤ c.balMax := by
    rw [← tokentimeNow_of h]; simp only [Bond.update, satAdd]; omega
  have hle : tokentimeLeft c s a v ≤ tokentimeNow c s a :=
    Nat.le_trans (Nat.mul_le_mul_left _ (Nat.sub_le _ _)) (Nat.div_mul_le_self _ _)
  refine ⟨?_, hle⟩
  have hv : (b.update c.balMax s.now).value = bondValue s a := (show _ = b.value from rfl).trans (bondValue_of h)
  simp only [Teerdays.leftTokentime, satMul, Teerdays.divOrZero, tokentimeNow_of h, hv, bondValue_of h]
  split
  · rename_i hz; simp [tokentimeLeft, hz]
  · exact Nat.min_eq_left (Nat.le_trans hle hm)

theorem attest_method {c : Cfg} {s : Chain} {a : AccountId} {proof : Bytes} {m : SgxAttestationMethod} {e : SgxEnclave}
    (h : Teerex.attest c s a proof m = .ok e) : e.method = m ∧ e.url = none := by
  cases m with
  | ias => obtain ⟨_, _, _, _, _, rfl⟩ := Teerex.attest_ias_ok.mp h; exact ⟨rfl, rfl⟩
  | dcap p => obtain ⟨_, _, _, _, _, _, _, _, _, rfl⟩ := Teerex.attest_dcap_ok.mp h; exact ⟨rfl, rfl⟩
  | skip p => obtain ⟨_, rfl⟩ := Teerex.attest_skip_ok.mp h; exact ⟨rfl, rfl⟩

theorem withUrl_facts {e : SgxEnclave} (url : Option Bytes) (h : e.url = none) :
    (e.withUrl url).url = url ∧ (e.withUrl url).method = e.method ∧ (e.withUrl url).status = e.status ∧
      (e.withUrl url).mrEnclave = e.mrEnclave := by
  cases url <;> exact ⟨by first | exact h | rfl, rfl, rfl, rfl⟩

theorem processClaim_news {c : Cfg} {s s' : Chain} {addr : EthAddr} {dest : AccountId}
    (h : Claims.processClaim c s addr dest = .ok s') :
    ∃ amount, Collected s s' addr amount ∧ ({ cl := [.claimed dest addr amount] } : News).Added s s' := by
  obtain ⟨due, _, h1, _, _, rfl⟩ := Claims.processClaim_ok.mp h
  exact ⟨due, ⟨h1, by simp⟩, by constructor <;> rfl⟩

/-- C122: a successful call adds exactly the events that the specification says, with the data of the call. -/
theorem C122_news (c : Cfg) (s s' : Chain) (o : Origin) (k : Call) (h : exec c s (.ext o k) = .ok s') :
    ∃ n : News, Announces c s s' o n k ∧ n.Added s s' := by
  cases k with
  | bond v =>
    obtain ⟨a, ho, _, _, rfl⟩ := Teerdays.bond_ok.mp h
    exact ⟨_, ⟨a, ho, rfl⟩, by constructor <;> rfl⟩
  | bondExtra v =>
    obtain ⟨a, b, ho, _, _, hb, rfl⟩ := Teerdays.bondExtra_ok.mp h
    refine ⟨_, ⟨a, ho, rfl⟩, ?_⟩
    rw [← bondNow_of hb, show bondValue s a = b.value from by simp [bondValue, hb]]
    constructor <;> rfl
  | unbond v =>
    obtain ⟨a, b, _, ho, _, _, hb, _, rfl⟩ := Teerdays.unbond_ok.mp h
    obtain ⟨h1, h2⟩ := tokentimeLeft_of (c := c) hb v
    refine ⟨_, ⟨a, tokentimeNow c s a - tokentimeLeft c s a v, ho, by omega, rfl, ?_⟩, ?_⟩
    · intro b' hb'
      simp only [upd_same] at hb'
      split at hb'
      · cases hb'
      · cases hb'; exact h1
    · rw [← h1, ← bondNow_of hb, ← bondValue_of hb, ← tokentimeNow_of hb,
        show min v b.value = b.value - (b.value - v) by omega]
      constructor <;> rfl
  | updateOther a =>
    obtain ⟨_, b, _, hb, rfl⟩ := Teerdays.updateOther_ok.mp h
    refine ⟨_, rfl, ?_⟩
    rw [← bondNow_of hb]
    constructor <;> rfl
  | withdrawUnbonded =>
    obtain ⟨a, due, amount, ho, _, _, rfl⟩ := Teerdays.withdrawUnbonded_ok.mp h
    refine ⟨_, ⟨a, ho, rfl⟩, ?_⟩
    refine { td := ?_, tx := rfl, br := rfl, sc := rfl, orc := rfl, cl := rfl, ar := rfl, xt := rfl }
    simp only [List.cons_append, List.nil_append, List.cons.injEq, TdEvent.withdrawn.injEq, true_and, and_true, tdLock]
    split
    · simp only [Balances.removeLock, upd_same]
      omega
    · rename_i hne
      unfold Balances.setLock
      split
      · omega
      · simp only [upd_same]; omega
  | registerSgxEnclave proof url m =>
    obtain ⟨a, e, ho, _, _, ha, _, (⟨_, rfl⟩ | ⟨_, g, _, rfl⟩)⟩ := Teerex.registerSgxEnclave_ok.mp h
    all_goals
      obtain ⟨hm, hu⟩ := attest_method ha
      obtain ⟨h1, h2, h3, h4⟩ := withUrl_facts url hu
      have hat := (Teerex.attest_ok.mp ha).2.2.1.withUrl (u := url)
      refine ⟨_, ⟨a, e.withUrl url, ho, ?_, h2.trans hm, h1, hat, rfl⟩, ?_⟩
    · exact .inl (upd_same ..)
    · rw [h3, ← hm]; constructor <;> rfl
    · exact .inr ⟨g, by rw [h4]; exact upd_same ..⟩
    · rw [h3, ← hm]; constructor <;> rfl
  | unregisterSovereignEnclave a =>
    obtain ⟨_, _, _, _, _, rfl⟩ := Teerex.unregisterSovereignEnclave_ok.mp h
    exact ⟨_, rfl, by constructor <;> rfl⟩
  | unregisterProxiedEnclave a =>
    obtain ⟨_, _, _, _, _, rfl⟩ := Teerex.unregisterProxiedEnclave_ok.mp h
    exact ⟨_, rfl, by constructor <;> rfl⟩
  | registerQuotingEnclave =>
    obtain ⟨_, _, _, hq, rfl⟩ := Teerex.registerQuotingEnclave_ok.mp h
    exact ⟨_, ⟨(signedIdentity_iff.mp hq).2, rfl⟩, by constructor <;> rfl⟩
  | registerTcbInfo =>
    obtain ⟨_, f, t, _, ht, rfl⟩ := Teerex.registerTcbInfo_ok.mp h
    exact ⟨_, ⟨f, t, (signedTcbInfo_iff.mp ht).2, upd_same .., rfl⟩, by constructor <;> rfl⟩
  | setSecurityFlags =>
    obtain ⟨_, rfl⟩ := Teerex.setSecurityFlags_ok.mp h
    exact ⟨_, rfl, by constructor <;> rfl⟩
  | invoke shard cy =>
    obtain ⟨_, _, rfl⟩ := (invoke_ok (cy := cy)).mp h
    exact ⟨_, rfl, by constructor <;> rfl⟩
  | confirmProcessedParentchainBlock shard =>
    obtain ⟨_, _, _, _, rfl⟩ := confirmProcessed_ok.mp h
    exact ⟨_, rfl, by constructor <;> rfl⟩
  | shieldFunds shard =>
    obtain ⟨a, _, _, hb, rfl⟩ := shieldFunds_ok.mp h
    exact ⟨_, rfl, by constructor <;> rfl⟩
  | unshieldFunds shard ben _ hash =>
    obtain ⟨_, _, _, _, (⟨hn, _, _, hb, _, rfl⟩ | ⟨_, _, hn, _, rfl⟩)⟩ := unshieldFunds_ok.mp h
    · exact ⟨_, .inl ⟨hn, rfl⟩, by constructor <;> rfl⟩
    · exact ⟨_, .inr ⟨by simp [hn], rfl⟩, by constructor <;> rfl⟩
  | publishHash hash topics data =>
    obtain ⟨a, e, _, ho, he, _, _, _, _, rfl⟩ := publishHash_ok.mp h
    exact ⟨_, ⟨a, e, ho, he, rfl⟩, by constructor <;> rfl⟩
  | updateShardConfig shard =>
    rcases updateShardConfig_ok.mp h with ⟨_, rfl⟩ | ⟨_, _, _, _, _, _, _, _, rfl⟩
    all_goals exact ⟨_, rfl, by constructor <;> rfl⟩
  | purgeEnclave shard =>
    obtain ⟨_, _, _, _, rfl⟩ := purgeEnclave_ok.mp h
    exact ⟨_, rfl, by constructor <;> rfl⟩
  | confirmImportedSidechainBlock shard =>
    obtain ⟨a, e, l, first, ⟨ho, _⟩, hf, (⟨hne, rfl⟩ | ⟨rfl, _, rfl⟩)⟩ := Sidechain.confirmImported_ok.mp h
    · exact ⟨_, ⟨a, ho, .inr ⟨by simpa [statusOf, hf] using fun h => hne h.symm, rfl⟩⟩, by constructor <;> rfl⟩
    · exact ⟨_, ⟨first.signer, ho, .inl ⟨by simp [statusOf, hf], rfl⟩⟩, by constructor <;> rfl⟩
  | addToWhitelist src =>
    obtain ⟨_, _, _, _, rfl⟩ := Teeracle.addToWhitelist_ok.mp h
    exact ⟨_, rfl, by constructor <;> rfl⟩
  | removeFromWhitelist src =>
    obtain ⟨_, _, rfl⟩ := Teeracle.removeFromWhitelist_ok.mp h
    exact ⟨_, rfl, by constructor <;> rfl⟩
  | updateOracle name src =>
    obtain ⟨_, _, _, _, _, _, _, _, rfl⟩ := Teeracle.updateOracle_ok.mp h
    exact ⟨_, rfl, by constructor <;> rfl⟩
  | updateExchangeRate src pair new =>
    obtain ⟨_, _, _, _, _, _, rfl⟩ := Teeracle.updateExchangeRate_ok.mp h
    match new with
    | none => exact ⟨_, .inr ⟨.inl rfl, rfl⟩, by constructor <;> rfl⟩
    | some 0 => exact ⟨_, .inr ⟨.inr rfl, rfl⟩, by constructor <;> rfl⟩
    | some (r + 1) => exact ⟨_, .inl ⟨r + 1, rfl, Nat.succ_ne_zero r, rfl⟩, by constructor <;> rfl⟩
  | claims q =>
    cases q with
    | claim dest sig =>
      obtain ⟨_, _, hg, _, hp⟩ := Claims.claim_ok.mp h
      obtain ⟨amount, h1, h2⟩ := processClaim_news hp
      exact ⟨_, ⟨_, amount, (ethRecover_iff ..).mp hg, h1, rfl⟩, h2⟩
    | claimAttest dest sig st =>
      obtain ⟨_, _, hg, _, hp⟩ := Claims.claimAttest_ok.mp h
      obtain ⟨amount, h1, h2⟩ := processClaim_news hp
      exact ⟨_, ⟨_, amount, (ethRecover_iff ..).mp hg, h1, rfl⟩, h2⟩
    | attest st =>
      obtain ⟨who, addr, s1, ho, hpre, _, hp, rfl⟩ := Claims.attest_ok.mp h
      obtain ⟨amount, h1, h2⟩ := processClaim_news hp
      exact ⟨_, ⟨who, addr, amount, ho, hpre, h1, rfl⟩, h2.td, h2.tx, h2.br, h2.sc, h2.orc, h2.cl, h2.ar, h2.xt⟩
    | mintClaim =>
      obtain ⟨_, _, _, rfl⟩ := Claims.mintClaim_ok.mp h
      exact ⟨_, rfl, by constructor <;> rfl⟩
    | moveClaim =>
      obtain ⟨_, rfl⟩ := Claims.moveClaim_ok.mp h
      exact ⟨_, rfl, by constructor <;> rfl⟩
  | registerReserveAsset i l =>
    obtain ⟨_, _, _, _, rfl⟩ := AssetRegistry.registerReserveAsset_ok.mp h
    exact ⟨_, rfl, by constructor <;> rfl⟩
  | unregisterReserveAsset i =>
    obtain ⟨l, _, hl, rfl⟩ := AssetRegistry.unregisterReserveAsset_ok.mp h
    exact ⟨_, ⟨l, hl, rfl⟩, by constructor <;> rfl⟩
  | sendSwapUmp =>
    obtain ⟨hash, _, _, _, _, hh, rfl⟩ := XcmTransactor.sendSwapUmp_ok.mp h
    exact ⟨_, ⟨hash, XcmTransactor.construct_swapProgram .. ▸ hh, rfl⟩, by constructor <;> rfl⟩
  | balTransfer dst =>
    obtain ⟨a, _, _, hb, rfl⟩ := balTransfer_ok.mp h
    exact ⟨_, rfl, by constructor <;> rfl⟩

example : (exec cfg start (.ext (.signed alice) (.bond 100))).isOk = true ∧
    (step cfg start (.ext (.signed alice) (.bond 100))).td.events = [.bonded alice 100] := by decide +kernel

/-- C122: everything else is silent. -/
theorem C122_silence (c : Cfg) (s s' : Chain) (op : Op) (hop : ∀ o k, op ≠ .ext o k) (h : exec c s op = .ok s') :
    ({} : News).Added s s' := by
  cases op with
  | ext o k => exact absurd rfl (hop o k)
  | addVesting a v =>
    simp only [exec] at h
    split at h
    · simp only [Except.ok.injEq] at h
      subst h
      constructor <;> rfl
    · simp at h
  | _ =>
    simp only [exec, Except.ok.injEq] at h
    subst h
    constructor <;> rfl

example : (exec cfg start (.newBlock 6)).isOk = true ∧ ∀ o k, Op.newBlock 6 ≠ .ext o k := ⟨by decide +kernel, by simp⟩

/-- A confirmation of a parentchain block, with all its data. -/
example :
    (run cfg start (bridgeHistory ++ [.ext (.signed alice) (.confirmProcessedParentchainBlock shard7 hash1 5 hash2)])
      ).br.events.head? = some (.processedParentchainBlock shard7 hash1 hash2 5) := by decide +kernel

/-! ### C123 The event of an unbonding states all tokentime that was lost -/

/-- C123, full claim: the event states the tokentime that the account had before and does not have afterwards. -/
def C123_Full : Prop :=
  ∀ (c : Cfg) (s s' : Chain) (a : AccountId) (v amount burned : Nat) (l : List TdEvent),
    exec c s (.ext (.signed a) (.unbond v)) = .ok s' → s'.td.events = .unbonded a amount burned :: l →
    tokentimeNow c s' a + burned = tokentimeNow c s a

/-- C123: it does if the bond goes on, and if everything is unbonded. Missing for the full claim: a rest below the
existential deposit, which is dropped together with its tokentime; then the event states less than was lost. -/
theorem C123_burned_partial (c : Cfg) (s s' : Chain) (a : AccountId) (v amount burned : Nat) (l : List TdEvent)
    (h : exec c s (.ext (.signed a) (.unbond v)) = .ok s') (he : s'.td.events = .unbonded a amount burned :: l) :
    tokentimeNow c s' a + burned ≤ tokentimeNow c s a ∧
    ((∃ b, s'.td.bonds a = some b) ∨ bondValue s a ≤ v →
      tokentimeNow c s' a + burned = tokentimeNow c s a) := by
  obtain ⟨a', b, _, ho, _, _, hb, _, rfl⟩ := Teerdays.unbond_ok.mp h
  cases ho
  have hl := leftTokentime_le c.balMax (b.update c.balMax s.now) (new := b.value - v) (Nat.sub_le _ _)
  have hm : (b.update c.balMax s.now).tokentime ≤ c.balMax := by
    simp only [Bond.update, satAdd]; omega
  have ht : tokentimeNow c s a = (b.update c.balMax s.now).tokentime := by rw [bondNow_of hb]; rfl
  have hv : bondValue s a = b.value := by simp [bondValue, hb]
  simp only [List.cons.injEq, TdEvent.unbonded.injEq, true_and] at he
  obtain ⟨⟨_, rfl⟩, -⟩ := he
  by_cases hd : b.value - v < c.ed
  · rw [ht]
    simp only [hd, if_true, tokentimeNow, upd_same, Option.elim_none]
    refine ⟨by omega, ?_⟩
    rintro (⟨b', hb'⟩ | hle)
    · simp at hb'
    · rw [hv] at hle
      have hz : Teerdays.leftTokentime c.balMax (b.update c.balMax s.now) (b.value - v) = 0 := by
        rw [show b.value - v = 0 by omega]; simp [Teerdays.leftTokentime, satMul]
      omega
  · rw [ht]
    simp only [hd, if_false, tokentimeNow, upd_same, Option.elim_some]
    simp only [Nat.sub_self, Nat.mul_zero, Nat.add_zero]
    refine ⟨by omega, fun _ => by omega⟩

/-- Alice unbonds 40 of 100 after 1000 ms. -/
example : ∃ amount burned l, (exec cfg (run cfg start [.ext (.signed alice) (.bond 100), .newBlock 1000])
      (.ext (.signed alice) (.unbond 40))).isOk = true ∧
    (step cfg (run cfg start [.ext (.signed alice) (.bond 100), .newBlock 1000]) (.ext (.signed alice) (.unbond 40))).td.events =
      .unbonded alice amount burned :: l := ⟨40, 40000, _, by decide +kernel, rfl⟩

/-- Alice bonds 100 for 1000 ms (100000 tokentime) and unbonds 95: the event states 95000. -/
def dustRestHistory : List Op := [.ext (.signed alice) (.bond 100), .newBlock 1000]

theorem C123_refuted : ¬ C123_Full := fun h => by
  have hx : exec cfg (run cfg start dustRestHistory) (.ext (.signed alice) (.unbond 95)) =
      .ok (step cfg (run cfg start dustRestHistory) (.ext (.signed alice) (.unbond 95))) := by
    rcases step_cases cfg (run cfg start dustRestHistory) (.ext (.signed alice) (.unbond 95)) with h | ⟨_, e, he⟩
    · exact h
    · have : (exec cfg (run cfg start dustRestHistory) (.ext (.signed alice) (.unbond 95))).isOk = true := by decide +kernel
      rw [he] at this; cases this
  have := h cfg _ _ alice 95 95 95000 [.tokenTimeUpdated alice ⟨100, 6000, 100000⟩, .bonded alice 100] hx
    (by decide +kernel)
  exact absurd this (by decide +kernel)

/-- The same with 40: the bond goes on, the event states 40000, and 60000 are left. -/
example : (run cfg start (dustRestHistory ++ [.ext (.signed alice) (.unbond 40)])).td.events.head? =
      some (.unbonded alice 40 40000) ∧
    tokentimeNow cfg (run cfg start (dustRestHistory ++ [.ext (.signed alice) (.unbond 40)])) alice = 60000 := by
  decide +kernel

end Verif
