import Verif.Spec.Accept
import Verif.Props.Sidechain
import Verif.Props.Claims
import Verif.Props.Xcm
import Verif.Props.Lifecycle

/-!
# Exactly which calls succeed: C105, C106
-/

namespace Verif

open Demo EnclaveBridge

theorem plainAdd_some {c : Cfg} {max a b : Nat} : (∃ r, plainAdd c max a b = .ok r) ↔ SumOk c max (a + b) := by
  simp only [plainAdd_eq_ok, SumOk]
  constructor
  · rintro ⟨r, ⟨h, _⟩ | ⟨_, h, _⟩⟩
    · exact .inl h
    · exact .inr h
  · rintro (h | h)
    · exact ⟨_, .inl ⟨h, rfl⟩⟩
    · by_cases hle : a + b ≤ max
      · exact ⟨_, .inl ⟨hle, rfl⟩⟩
      · exact ⟨_, .inr ⟨Nat.lt_of_not_le hle, h, rfl⟩⟩

theorem reducible_iff {c : Cfg} {s : Chain} {src : AccountId} {v : Nat} (hv : v ≠ 0) :
    (v ≤ s.bal.free src ∧ v ≤ s.bal.reducible c.ed src) ↔ (v ≤ s.bal.free src ∧
      ∀ id, s.bal.lock id src ≠ 0 → s.bal.lock id src + v ≤ s.bal.free src ∧ c.ed + v ≤ s.bal.free src) := by
  unfold Balances.reducible Balances.frozen
  constructor
  · rintro ⟨h1, h2⟩
    refine ⟨h1, fun id hid => ?_⟩
    split at h2
    · cases id <;> omega
    · cases id <;> omega
  · rintro ⟨h1, h2⟩
    refine ⟨h1, ?_⟩
    have a1 := h2 .teerdays
    have a2 := h2 .vesting
    have a3 := h2 .other
    split
    · exact h1
    · by_cases z1 : s.bal.lock .teerdays src = 0 <;> by_cases z2 : s.bal.lock .vesting src = 0 <;>
        by_cases z3 : s.bal.lock .other src = 0 <;> simp only [z1, z2, z3, ne_eq, not_true_eq_false, not_false_eq_true,
          false_implies, true_implies] at a1 a2 a3 <;> omega

theorem transfer_some {c : Cfg} {s : Chain} {src dst : AccountId} {v : Nat} :
    (∃ b, s.bal.transfer c.ed c.balMax src dst v = .ok b) ↔ CanPay c s src dst v := by
  unfold CanPay
  constructor
  · rintro ⟨b, h⟩
    rcases Balances.transfer_ok h with ⟨h | h, _⟩ | ⟨h1, _, h3, h4, h5, h6, _⟩
    · exact .inl h
    · exact .inr (.inl h)
    · obtain ⟨r1, r2⟩ := (reducible_iff h1).mp ⟨h3, h4⟩
      exact .inr (.inr ⟨r1, r2, h5, h6⟩)
  · intro h
    unfold Balances.transfer
    by_cases hz : v = 0 ∨ src = dst
    · exact ⟨_, by rw [if_pos hz]⟩
    · rcases h with h | h | ⟨h1, h2, h3, h4⟩
      · exact absurd (.inl h) hz
      · exact absurd (.inr h) hz
      · obtain ⟨r1, r2⟩ := (reducible_iff (c := c) (fun e => hz (.inl e))).mpr ⟨h1, h2⟩
        rw [if_neg hz, if_neg (by omega), if_neg (by omega), if_neg (by omega), if_neg (by omega)]
        exact ⟨_, rfl⟩

theorem touched_fits {s : Chain} (hs : StatusOk s) (shard : ShardId) (a : AccountId) (fp : Fingerprint) :
    (touched s shard a fp s.block).length ≤ 10 ↔ HasPlace s shard a := by
  obtain ⟨hlen, hnd, _⟩ := hs shard
  have h1 : touched s shard a fp s.block = touchedList (statusOf s shard) ⟨a, fp, s.block⟩ := touchList_eq hnd
  rw [h1, ← List.length_map (f := fun i : SignerStatus => i.signer), touchedList_signers]
  unfold HasPlace
  simp only
  split
  · rename_i hm; simp [hm, hlen]
  · rename_i hm
    simp only [hm, false_or, List.length_append, List.length_map, List.length_singleton]
    omega

theorem entered_iff {s : Chain} (hs : StatusOk s) {o : Origin} {shard : ShardId} {a : AccountId} :
    (∃ e l, Entered s o shard a e l) ↔ MayAct s o shard a := by
  unfold Entered MayAct RightEnclave
  constructor
  · rintro ⟨e, l, h1, h2, h3, rfl, h5⟩
    exact ⟨h1, ⟨e, h2, h3⟩, (touched_fits hs ..).mp h5⟩
  · rintro ⟨h1, ⟨e, h2, h3⟩, h4⟩
    exact ⟨e, _, h1, h2, h3, rfl, (touched_fits hs ..).mpr h4⟩

theorem paid_some {c : Cfg} {s : Chain} {g : EthAddr} {dest : AccountId} {due : Nat} :
    (∃ bal, Claims.Paid c s g dest due bal) ↔ ∀ v, s.cl.vesting g = some v → s.bal.schedules dest = [] ∧
      (v.locked = 0 ∨ (v.perBlock ≠ 0 ∧ c.maxSchedules ≠ 0)) := by
  unfold Claims.Paid
  cases hv : s.cl.vesting g with
  | none => simp
  | some v =>
    simp only [Option.some.injEq, forall_eq']
    have hsch : (s.bal.depositCreating c.ed c.balMax dest due).schedules = s.bal.schedules := by
      unfold Balances.depositCreating; split <;> rfl
    constructor
    · rintro ⟨bal, h1, h2⟩
      refine ⟨h1, ?_⟩
      unfold Balances.addVesting at h2
      rw [hsch, h1] at h2
      by_cases z : v.locked = 0
      · exact .inl z
      · rw [if_neg z] at h2
        by_cases z2 : v.perBlock = 0
        · rw [if_pos z2] at h2; cases h2
        · rw [if_neg z2] at h2
          by_cases z3 : c.maxSchedules ≤ ([] : List VestingInfo).length
          · rw [if_pos z3] at h2; cases h2
          · exact .inr ⟨z2, by simpa using z3⟩
    · rintro ⟨h1, h2⟩
      unfold Balances.addVesting
      rw [hsch, h1]
      by_cases z : v.locked = 0
      · exact ⟨_, rfl, by rw [if_pos z]⟩
      · rcases h2 with h2 | ⟨h2, h3⟩
        · exact absurd h2 z
        · exact ⟨_, rfl, by rw [if_neg z, if_neg h2, if_neg (by simpa using h3)]⟩

theorem processClaim_some {c : Cfg} {s : Chain} {g : EthAddr} {dest : AccountId} :
    (∃ s', Claims.processClaim c s g dest = .ok s') ↔ Payable c s g dest := by
  simp only [Claims.processClaim_ok]
  constructor
  · rintro ⟨s', due, bal, h1, h2, h3, _⟩
    exact ⟨⟨due, h1, h2⟩, paid_some.mp ⟨bal, h3⟩⟩
  · rintro ⟨⟨due, h1, h2⟩, h3⟩
    obtain ⟨bal, hb⟩ := paid_some.mpr h3
    exact ⟨_, due, bal, h1, h2, hb, rfl⟩

theorem primary_iff {s : Chain} (hs : StatusOk s) {shard : ShardId} {a : AccountId} {fp : Fingerprint} {first : SignerStatus}
    (hf : (touched s shard a fp s.block).head? = some first) : a = first.signer ↔ Primary s shard a := by
  obtain ⟨_, hnd, _⟩ := hs shard
  have h1 : touched s shard a fp s.block = touchedList (statusOf s shard) ⟨a, fp, s.block⟩ := touchList_eq hnd
  rw [h1] at hf
  have h2 := touchedList_head (l := statusOf s shard) (new := ⟨a, fp, s.block⟩) (a := a) rfl
  rw [hf] at h2
  simp only [Option.map_some, Option.some.injEq] at h2
  rw [eq_comm]; exact h2

theorem accepts_iff {c : Cfg} {s : Chain} (hs : StatusOk s) (o : Origin) (k : Call) :
    (∃ s', exec c s (.ext o k) = .ok s') ↔ Accepts c s o k := by
  cases k with
  | bond v => 
    show (∃ s', Teerdays.bond c s o v = .ok s') ↔ _
    simp only [Teerdays.bond_ok, Accepts]
    constructor
    · rintro ⟨_, a, h1, h2, h3, _⟩; exact ⟨a, h1, h2, h3⟩
    · rintro ⟨a, h1, h2, h3⟩; exact ⟨_, a, h1, h2, h3, rfl⟩
  | bondExtra v =>
    show (∃ s', Teerdays.bondExtra c s o v = .ok s') ↔ _
    simp only [Teerdays.bondExtra_ok, Accepts]
    constructor
    · rintro ⟨_, a, b, h1, h2, h3, h4, _⟩; exact ⟨a, h1, by simp [h4], h2, h3⟩
    · rintro ⟨a, h1, h4, h2, h3⟩
      obtain ⟨b, hb⟩ := Option.ne_none_iff_exists'.mp h4
      exact ⟨_, a, b, h1, h2, h3, hb, rfl⟩
  | unbond v =>
    show (∃ s', Teerdays.unbond c s o v = .ok s') ↔ _
    simp only [Teerdays.unbond_ok, Accepts]
    constructor
    · rintro ⟨_, a, b, due, h1, h2, h3, h4, h5, _⟩; exact ⟨a, h1, by simp [h4], h2, h3, plainAdd_some.mp ⟨_, h5⟩⟩
    · rintro ⟨a, h1, h4, h2, h3, h5⟩
      obtain ⟨b, hb⟩ := Option.ne_none_iff_exists'.mp h4
      obtain ⟨due, hd⟩ := plainAdd_some.mpr h5
      exact ⟨_, a, b, due, h1, h2, h3, hb, hd, rfl⟩
  | updateOther who =>
    show (∃ s', Teerdays.updateOther c s o who = .ok s') ↔ _
    simp only [Teerdays.updateOther_ok, Accepts]
    constructor
    · rintro ⟨_, a, b, h1, h2, _⟩; exact ⟨a, h1, by simp [h2]⟩
    · rintro ⟨a, h1, h2⟩
      obtain ⟨b, hb⟩ := Option.ne_none_iff_exists'.mp h2
      exact ⟨_, a, b, h1, hb, rfl⟩
  | withdrawUnbonded =>
    show (∃ s', Teerdays.withdrawUnbonded s o = .ok s') ↔ _
    simp only [Teerdays.withdrawUnbonded_ok, Accepts]
    constructor
    · rintro ⟨_, a, due, am, h1, h2, h3, _⟩; exact ⟨a, due, am, h1, h2, h3⟩
    · rintro ⟨a, due, am, h1, h2, h3⟩; exact ⟨_, a, due, am, h1, h2, h3, rfl⟩
  | registerSgxEnclave proof url m =>
    simp only [register_iff, Accepts]
    constructor
    · rintro ⟨_, a, e, h1, h2, h3, h4, h5, h6, h7, ⟨_, h8, _⟩ | ⟨h8, _⟩⟩
      · exact ⟨a, e, h1, h2, h3, h4, h5, h6, h7, .inr h8⟩
      · exact ⟨a, e, h1, h2, h3, h4, h5, h6, h7, .inl ((isProxied_eq e).trans h8)⟩
    · rintro ⟨a, e, h1, h2, h3, h4, h5, h6, h7, h8⟩
      rw [isProxied_eq] at h8
      cases hp : e.proxied with
      | true => exact ⟨_, a, e, h1, h2, h3, h4, h5, h6, h7, .inr ⟨hp, rfl⟩⟩
      | false =>
        rcases h8 with h8 | h8
        · rw [hp] at h8; cases h8
        · exact ⟨_, a, e, h1, h2, h3, h4, h5, h6, h7, .inl ⟨hp, h8, rfl⟩⟩
  | unregisterSovereignEnclave a =>
    show (∃ s', Teerex.unregisterSovereignEnclave c s o a = .ok s') ↔ _
    simp only [Teerex.unregisterSovereignEnclave_ok, Accepts]
    constructor
    · rintro ⟨_, b, e, h1, h2, h3, _⟩; exact ⟨b, e, h1, h2, by omega⟩
    · rintro ⟨b, e, h1, h2, h3⟩; exact ⟨_, b, e, h1, h2, by omega, rfl⟩
  | unregisterProxiedEnclave p =>
    show (∃ s', Teerex.unregisterProxiedEnclave c s o p = .ok s') ↔ _
    simp only [Teerex.unregisterProxiedEnclave_ok, Accepts]
    constructor
    · rintro ⟨_, b, e, h1, h2, h3, _⟩; exact ⟨b, e, h1, h2, by omega⟩
    · rintro ⟨b, e, h1, h2, h3⟩; exact ⟨_, b, e, h1, h2, by omega, rfl⟩
  | registerQuotingEnclave i g ch =>
    show (∃ s', Teerex.registerQuotingEnclave c s o i g ch = .ok s') ↔ _
    simp only [Teerex.registerQuotingEnclave_ok, signedIdentity_iff, Accepts]
    constructor
    · rintro ⟨_, a, q, h1, ⟨h2, h3⟩, _⟩; exact ⟨a, q, h1, h2, h3⟩
    · rintro ⟨a, q, h1, h2, h3⟩; exact ⟨_, a, q, h1, ⟨h2, h3⟩, rfl⟩
  | registerTcbInfo i g ch =>
    show (∃ s', Teerex.registerTcbInfo c s o i g ch = .ok s') ↔ _
    simp only [Teerex.registerTcbInfo_ok, signedTcbInfo_iff, Accepts]
    constructor
    · rintro ⟨_, a, f, t, h1, ⟨h2, h3⟩, _⟩; exact ⟨a, f, t, h1, h2, h3⟩
    · rintro ⟨a, f, t, h1, h2, h3⟩; exact ⟨_, a, f, t, h1, ⟨h2, h3⟩, rfl⟩
  | setSecurityFlags sk db =>
    show (∃ s', Teerex.setSecurityFlags s o sk db = .ok s') ↔ _
    simp only [Teerex.setSecurityFlags_ok, Accepts]
    exact ⟨fun ⟨_, h, _⟩ => h, fun h => ⟨_, h, rfl⟩⟩
  | invoke shard cy =>
    show (∃ s', EnclaveBridge.invoke s o shard cy = .ok s') ↔ _
    simp only [invoke_ok, Accepts]
    exact ⟨fun ⟨_, a, h, _⟩ => ⟨a, h⟩, fun ⟨a, h⟩ => ⟨_, a, h, rfl⟩⟩
  | confirmProcessedParentchainBlock shard bh bn root =>
    show (∃ s', EnclaveBridge.confirmProcessedParentchainBlock s o shard bh bn root = .ok s') ↔ _
    simp only [confirmProcessed_ok, Accepts, ← entered_iff hs]
    exact ⟨fun ⟨_, a, e, l, h, _⟩ => ⟨a, e, l, h⟩, fun ⟨a, e, l, h⟩ => ⟨_, a, e, l, h, rfl⟩⟩
  | shieldFunds shard inc amount =>
    show (∃ s', EnclaveBridge.shieldFunds c s o shard inc amount = .ok s') ↔ _
    simp only [shieldFunds_ok, Accepts, ← transfer_some]
    exact ⟨fun ⟨_, a, b, h, h2, _⟩ => ⟨a, h, b, h2⟩, fun ⟨a, h, b, h2⟩ => ⟨_, a, b, h, h2, rfl⟩⟩
  | unshieldFunds shard ben amount h =>
    show (∃ s', EnclaveBridge.unshieldFunds c s o shard ben amount h = .ok s') ↔ _
    simp only [unshieldFunds_ok, Accepts, ← entered_iff hs]
    constructor
    · rintro ⟨_, a, e, l, h1, ⟨h2, b, n, h3, h4, _⟩ | ⟨k, n, h2, h3, _⟩⟩
      · exact ⟨a, ⟨e, l, h1⟩, by rw [h2]; exact transfer_some.mp ⟨b, h3⟩⟩
      · exact ⟨a, ⟨e, l, h1⟩, by rw [h2]; exact plainAdd_some.mp ⟨n, h3⟩⟩
    · rintro ⟨a, ⟨e, l, h1⟩, h2⟩
      cases hx : s.br.executed h with
      | none =>
        rw [hx] at h2
        obtain ⟨b, hb⟩ := transfer_some.mpr h2
        exact ⟨_, a, e, l, h1, .inl ⟨rfl, b, 1, hb, plainAdd_eq_ok.mpr (.inl ⟨by decide, rfl⟩), rfl⟩⟩
      | some k =>
        rw [hx] at h2
        obtain ⟨n, hn⟩ := plainAdd_some.mpr h2
        exact ⟨_, a, e, l, h1, .inr ⟨k, n, rfl, hn, rfl⟩⟩
  | publishHash hash topics data =>
    show (∃ s', EnclaveBridge.publishHash s o hash topics data = .ok s') ↔ _
    simp only [publishHash_ok, Accepts]
    constructor
    · rintro ⟨_, a, e, l, h1, h2, rfl, h4, h5, h6, _⟩
      exact ⟨a, e, h1, h2, (touched_fits hs ..).mp h4, h5, h6⟩
    · rintro ⟨a, e, h1, h2, h3, h5, h6⟩
      exact ⟨_, a, e, _, h1, h2, rfl, (touched_fits hs ..).mpr h3, h5, h6, rfl⟩
  | updateShardConfig shard cfg d =>
    show (∃ s', EnclaveBridge.updateShardConfig c s o shard cfg d = .ok s') ↔ _
    simp only [updateShardConfig_ok, Accepts]
    constructor
    · rintro ⟨_, ⟨h, _⟩ | ⟨a, e, l, h1, h2, h3, rfl, h5, _⟩⟩
      · exact .inl h
      · exact .inr ⟨a, e, h1, h2, (touched_fits hs ..).mp h5, h3⟩
    · rintro (h | ⟨a, e, h1, h2, h5, h3⟩)
      · exact ⟨_, .inl ⟨h, rfl⟩⟩
      · exact ⟨_, .inr ⟨a, e, _, h1, h2, h3, rfl, (touched_fits hs ..).mpr h5, rfl⟩⟩
  | purgeEnclave shard a =>
    show (∃ s', EnclaveBridge.purgeEnclave s o shard a = .ok s') ↔ _
    simp only [purgeEnclave_ok, Accepts]
    constructor
    · rintro ⟨_, l, h1, h2, _⟩; exact ⟨h1, by simp [h2]⟩
    · rintro ⟨h1, h2⟩
      obtain ⟨l, hl⟩ := Option.ne_none_iff_exists'.mp h2
      have hlen := (hs shard).1
      simp only [statusOf, hl, Option.getD_some] at hlen
      exact ⟨_, l, h1, hl, Nat.le_trans (List.length_filter_le _ _) hlen, rfl⟩
  | confirmImportedSidechainBlock shard anc cand =>
    show (∃ s', Sidechain.confirmImportedSidechainBlock s o shard anc cand = .ok s') ↔ _
    simp only [Sidechain.confirmImported_ok, Accepts, ← entered_iff hs]
    constructor
    · rintro ⟨_, a, e, l, first, h1, hf, h2⟩
      refine ⟨a, ⟨e, l, h1⟩, fun hp => ?_⟩
      have hl := h1.2.2.2.1
      rw [hl] at hf
      have := (primary_iff hs hf).mpr hp
      rcases h2 with ⟨hne, _⟩ | ⟨_, hlink, _⟩
      · exact absurd this hne
      · exact hlink
    · rintro ⟨a, ⟨e, l, h1⟩, h2⟩
      have hl := h1.2.2.2.1
      have hne : touched s shard a e.fingerprint s.block ≠ [] := by
        have : touched s shard a e.fingerprint s.block = touchedList (statusOf s shard) ⟨a, e.fingerprint, s.block⟩ :=
          touchList_eq (hs shard).2.1
        rw [this]; exact touchedList_ne_nil _ _
      obtain ⟨first, hf⟩ : ∃ first, (touched s shard a e.fingerprint s.block).head? = some first :=
        ⟨_, List.head?_eq_some_head hne⟩
      have hf' : l.head? = some first := by rw [hl]; exact hf
      by_cases hp : a = first.signer
      · exact ⟨_, a, e, l, first, h1, hf', .inr ⟨hp, h2 ((primary_iff hs hf).mp hp), rfl⟩⟩
      · exact ⟨_, a, e, l, first, h1, hf', .inl ⟨hp, rfl⟩⟩
  | addToWhitelist src fp =>
    show (∃ s', Teeracle.addToWhitelist c s o src fp = .ok s') ↔ _
    simp only [Teeracle.addToWhitelist_ok, Accepts]
    exact ⟨fun ⟨_, h1, h2, h3, h4, _⟩ => ⟨h1, h2, h3, h4⟩, fun ⟨h1, h2, h3, h4⟩ => ⟨_, h1, h2, h3, h4, rfl⟩⟩
  | removeFromWhitelist src fp =>
    show (∃ s', Teeracle.removeFromWhitelist s o src fp = .ok s') ↔ _
    simp only [Teeracle.removeFromWhitelist_ok, Accepts]
    exact ⟨fun ⟨_, h1, h2, _⟩ => ⟨h1, h2⟩, fun ⟨h1, h2⟩ => ⟨_, h1, h2, rfl⟩⟩
  | updateOracle name src blob =>
    show (∃ s', Teeracle.updateOracle c s o name src blob = .ok s') ↔ _
    simp only [Teeracle.updateOracle_ok, Accepts]
    exact ⟨fun ⟨_, a, e, h1, h2, h3, h4, h5, h6, _⟩ => ⟨a, e, h1, h2, h3, h4, h5, h6⟩,
      fun ⟨a, e, h1, h2, h3, h4, h5, h6⟩ => ⟨_, a, e, h1, h2, h3, h4, h5, h6, rfl⟩⟩
  | updateExchangeRate src pair new =>
    show (∃ s', Teeracle.updateExchangeRate s o src pair new = .ok s') ↔ _
    simp only [Teeracle.updateExchangeRate_ok, Accepts]
    exact ⟨fun ⟨_, a, e, h1, h2, h3, h4, _⟩ => ⟨a, e, h1, h2, h4, h3⟩,
      fun ⟨a, e, h1, h2, h4, h3⟩ => ⟨_, a, e, h1, h2, h3, h4, rfl⟩⟩
  | claims k =>
    cases k with
    | claim dest sig =>
      show (∃ s', Claims.claim c s o dest sig = .ok s') ↔ _
      simp only [Claims.claim_ok, ethRecover_iff, Accepts, ← processClaim_some]
      exact ⟨fun ⟨s', g, h1, h2, h3, h4⟩ => ⟨h1, g, h2, h3, s', h4⟩, fun ⟨h1, g, h2, h3, s', h4⟩ => ⟨s', g, h1, h2, h3, h4⟩⟩
    | claimAttest dest sig st =>
      show (∃ s', Claims.claimAttest c s o dest sig st = .ok s') ↔ _
      simp only [Claims.claimAttest_ok, ethRecover_iff, Accepts, ← processClaim_some]
      exact ⟨fun ⟨s', g, h1, h2, h3, h4⟩ => ⟨h1, g, h2, h3, s', h4⟩, fun ⟨h1, g, h2, h3, s', h4⟩ => ⟨s', g, h1, h2, h3, h4⟩⟩
    | attest st =>
      show (∃ s', Claims.attest c s o st = .ok s') ↔ _
      simp only [Claims.attest_ok, Accepts, ← processClaim_some]
      exact ⟨fun ⟨_, a, g, s1, h1, h2, h3, h4, _⟩ => ⟨a, g, h1, h2, h3, s1, h4⟩,
        fun ⟨a, g, h1, h2, h3, s1, h4⟩ => ⟨_, a, g, s1, h1, h2, h3, h4, rfl⟩⟩
    | mintClaim who v vest st =>
      show (∃ s', Claims.mintClaim c s o who v vest st = .ok s') ↔ _
      simp only [Claims.mintClaim_ok, Accepts, ← plainAdd_some]
      exact ⟨fun ⟨_, t, h1, h2, _⟩ => ⟨h1, t, h2⟩, fun ⟨h1, t, h2⟩ => ⟨_, t, h1, h2, rfl⟩⟩
    | moveClaim old new p =>
      show (∃ s', Claims.moveClaim c s o old new p = .ok s') ↔ _
      simp only [Claims.moveClaim_ok, Accepts]
      exact ⟨fun ⟨_, h, _⟩ => h, fun h => ⟨_, h, rfl⟩⟩
  | registerReserveAsset id loc =>
    show (∃ s', AssetRegistry.registerReserveAsset c s o id loc = .ok s') ↔ _
    simp only [AssetRegistry.registerReserveAsset_ok, Accepts, validAssetLocation_iff, Option.isSome_iff_ne_none]
    exact ⟨fun ⟨_, h1, h2, h3, h4, _⟩ => ⟨h1, h2, h3, h4⟩, fun ⟨h1, h2, h3, h4⟩ => ⟨_, h1, h2, h3, h4, rfl⟩⟩
  | unregisterReserveAsset id =>
    show (∃ s', AssetRegistry.unregisterReserveAsset c s o id = .ok s') ↔ _
    simp only [AssetRegistry.unregisterReserveAsset_ok, Accepts]
    constructor
    · rintro ⟨_, loc, h1, h2, _⟩; exact ⟨h1, by simp [h2]⟩
    · rintro ⟨h1, h2⟩
      obtain ⟨loc, hl⟩ := Option.ne_none_iff_exists'.mp h2
      exact ⟨_, loc, h1, hl, rfl⟩
  | sendSwapUmp self other w fee =>
    show (∃ s', XcmTransactor.sendSwapUmp c s o self other w fee = .ok s') ↔ _
    simp only [XcmTransactor.sendSwapUmp_ok, Accepts, XcmTransactor.construct_swapProgram]
    exact ⟨fun ⟨_, hash, h1, h2, h3, h4, h5, _⟩ => ⟨h1, h2, h3, h4, hash, h5⟩,
      fun ⟨h1, h2, h3, h4, hash, h5⟩ => ⟨_, hash, h1, h2, h3, h4, h5, rfl⟩⟩
  | balTransfer dst amount =>
    show (∃ s', balTransfer c s o dst amount = .ok s') ↔ _
    simp only [balTransfer_ok, Accepts, ← transfer_some]
    exact ⟨fun ⟨_, a, b, h, h2, _⟩ => ⟨a, h, b, h2⟩, fun ⟨a, h, b, h2⟩ => ⟨_, a, b, h, h2, rfl⟩⟩

/-- C105: in every state of every history a call succeeds exactly if the conditions of the table `Accepts` hold. -/
theorem C105_exactly_when (c : Cfg) (s0 : Chain) (ops : List Op) (h0 : FreshBridge s0) (o : Origin) (k : Call) :
    (∃ s', exec c (run c s0 ops) (.ext o k) = .ok s') ↔ Accepts c (run c s0 ops) o k :=
  accepts_iff (statusOk_run (c := c) (statusOk_fresh h0) ops) o k

/-- The table is met, and not met, in concrete states: Alice may unshield, but not once more money than there is; a
claim of Carol is accepted once. -/
example : FreshBridge start ∧
    let s := run cfg start bridgeHistory
    (exec cfg s (unshield alice carol 40 hash2)).isOk = true ∧ (exec cfg s (unshield alice carol 41 hash2)).isOk = false ∧
    (exec cfg s (unshield alice carol 41 hash1)).isOk = true ∧ (exec cfg s (unshield bob carol 40 hash2)).isOk = false :=
  ⟨⟨fun _ => rfl, fun _ => rfl, fun _ => rfl⟩, by decide +kernel⟩

/-! ### C106 An account attests at most once -/

/-- The operation is an `attest` signed by the account. -/
def Op.attestBy (a : AccountId) : Op → Bool
  | .ext (.signed b) (.claims (.attest _)) => b == a
  | _ => false

/-- Effect of an accepted operation on the preclaim of an account. -/
theorem preclaim_effect {c : Cfg} {s s' : Chain} {op : Op} (h : exec c s op = .ok s') (a : AccountId) :
    (op.attestBy a = true → s.cl.preclaims a ≠ none ∧ s'.cl.preclaims a = none) ∧
    (s.cl.preclaims a = none → s'.cl.preclaims a = none) := by
  have pc : ∀ {g dest} {s1 : Chain}, Claims.processClaim c s g dest = .ok s1 → s1.cl.preclaims = s.cl.preclaims := by
    intro g dest s1 h
    obtain ⟨_, _, _, _, _, rfl⟩ := Claims.processClaim_ok.mp h
    rfl
  by_cases hp : Part.claims ∈ op.parts
  · cases op with
    | ext o k =>
      cases k with
      | claims k =>
        cases k with
        | claim dest sig =>
          obtain ⟨_, rfl, _, _, h⟩ := Claims.claim_ok.mp h
          exact ⟨by simp [Op.attestBy], fun hn => by rw [pc h]; exact hn⟩
        | claimAttest dest sig st =>
          obtain ⟨_, rfl, _, _, h⟩ := Claims.claimAttest_ok.mp h
          exact ⟨by simp [Op.attestBy], fun hn => by rw [pc h]; exact hn⟩
        | attest st =>
          obtain ⟨who, g, s1, rfl, h1, _, h2, rfl⟩ := Claims.attest_ok.mp h
          refine ⟨fun hb => ?_, fun hn => ?_⟩
          · have : who = a := eq_of_beq hb
            subst this
            exact ⟨by simp [h1], upd_same ..⟩
          · by_cases hw : a = who
            · subst hw; exact upd_same ..
            · show upd s1.cl.preclaims who none a = none
              rw [upd_ne _ _ hw, pc h2]; exact hn
        | mintClaim who v vest st =>
          obtain ⟨_, rfl, _, rfl⟩ := Claims.mintClaim_ok.mp h
          exact ⟨by simp [Op.attestBy], fun hn => hn⟩
        | moveClaim old new p =>
          obtain ⟨_, rfl⟩ := Claims.moveClaim_ok.mp h
          refine ⟨by cases o <;> simp [Op.attestBy], fun hn => ?_⟩
          show Claims.movedPreclaims s old new p a = none
          unfold Claims.movedPreclaims
          cases p with
          | none => exact hn
          | some p =>
            simp only
            split
            · rename_i hpre
              have hap : a ≠ p := fun e => by rw [← e, hn] at hpre; cases hpre
              rw [upd_ne _ _ hap]; exact hn
            · exact hn
      | _ => simp [Op.parts, Call.parts] at hp
    | _ => simp [Op.parts] at hp
  · have hcl : s'.cl = s.cl := exec_frame h .claims hp
    refine ⟨fun hb => ?_, fun hn => by rw [hcl]; exact hn⟩
    exfalso
    cases op with
    | ext o k =>
      cases k with
      | claims k => cases o <;> cases k <;> simp [Op.attestBy, Op.parts, Call.parts] at hb hp
      | _ => cases o <;> simp [Op.attestBy] at hb
    | _ => simp [Op.attestBy] at hb

/-- C106: in every history an account attests successfully at most once, and not at all unless a preclaim was made for it
at genesis. -/
theorem C106_attests_once (c : Cfg) (s0 : Chain) (ops : List Op) (a : AccountId) :
    ((accepted c s0 ops).filter fun p => p.2.attestBy a).length ≤ (if s0.cl.preclaims a = none then 0 else 1) := by
  have key := history_induction (c := c) (s0 := s0) (P := fun s acc =>
    (acc.filter fun p : Chain × Op => p.2.attestBy a).length + (if s.cl.preclaims a = none then 0 else 1) ≤
      (if s0.cl.preclaims a = none then 0 else 1)) (by simp) ?_ ops
  · omega
  · intro s s' op acc ih hx
    obtain ⟨h1, h2⟩ := preclaim_effect hx a
    simp only [List.filter_append, List.length_append, List.filter_cons, List.filter_nil]
    by_cases hb : op.attestBy a = true
    · obtain ⟨h3, h4⟩ := h1 hb
      rw [if_neg h3] at ih
      rw [if_pos h4]
      simp only [hb, if_true, List.length_cons, List.length_nil]
      omega
    · simp only [hb, if_false, List.length_nil]
      by_cases hn : s.cl.preclaims a = none
      · rw [if_pos hn] at ih; rw [if_pos (h2 hn)]; simpa using ih
      · rw [if_neg hn] at ih
        have hle : (if s'.cl.preclaims a = none then 0 else 1) ≤ 1 := by split <;> omega
        simp only [Bool.false_eq_true, if_false, List.length_nil]
        omega

/-- Bob has a preclaim and attests. -/
example : claimsStart.cl.preclaims bob ≠ none ∧
    ((accepted cfg claimsStart [attestOp bob .regular, attestOp bob .saft, attestOp bob .saft]).filter
      fun p => p.2.attestBy bob).length = 1 := by decide +kernel

end Verif
