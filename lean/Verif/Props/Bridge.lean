import Verif.Proofs.Currency
import Verif.Spec.DemoBridge
import Verif.Spec.Teerex

/-!
# Enclave bridge: properties C27 to C38 and C74
-/

namespace Verif

open Demo EnclaveBridge

/-! ### C27 An unshielding call pays out at most once -/

/-- C27: after one successful unshielding call with a hash, no later call with this hash moves any money or
emits an unshielding event, whoever makes it, with whatever other arguments. -/
theorem C27_paid_once (c : Cfg) (s0 s1 : Chain) (o o' : Origin) (shard shard' : ShardId) (ben ben' : AccountId)
    (amount amount' : Nat) (hash : H256) (ops : List Op)
    (h1 : exec c s0 (.ext o (.unshieldFunds shard ben amount hash)) = .ok s1) :
    (step c (run c s1 ops) (.ext o' (.unshieldFunds shard' ben' amount' hash))).bal = (run c s1 ops).bal ∧
    (step c (run c s1 ops) (.ext o' (.unshieldFunds shard' ben' amount' hash))).br.events =
      (run c s1 ops).br.events := by
  have hex : (run c s1 ops).br.executed hash ≠ none := by
    refine run_invariant (c := c) (P := fun s => s.br.executed hash ≠ none) ?_ ?_ ops
    · intro s s' op h hx
      rcases executed_effect hx hash with ⟨_, h'⟩ | ⟨_, n, _, h'⟩ <;> rw [h']
      · exact h
      · simp
    · rcases executed_effect h1 hash with ⟨h, _⟩ | ⟨_, n, _, h'⟩
      · simp [Op.unshieldHash] at h
      · rw [h']; simp
  rcases step_cases c (run c s1 ops) (.ext o' (.unshieldFunds shard' ben' amount' hash)) with h | ⟨h, _⟩
  · obtain ⟨a, e, l, _, (⟨h5, _⟩ | ⟨k, n, h5, h6, h⟩)⟩ := unshieldFunds_ok.mp h
    · exact absurd h5 hex
    · rw [h]; exact ⟨rfl, rfl⟩
  · rw [h]; exact ⟨rfl, rfl⟩

/-- Alice's call with the first hash has paid; when Carol repeats it with more money for Bob, nothing moves. -/
example : (step cfg (run cfg (run cfg start (bridgeHistory.take 4)) [shield bob 50]) (unshield carol bob 30 hash1)).bal =
    (run cfg (run cfg start (bridgeHistory.take 4)) [shield bob 50]).bal :=
  (C27_paid_once cfg (run cfg start (bridgeHistory.take 3)) _ _ (.signed carol) shard7 shard7 _ bob _ 30 hash1
    [shield bob 50] (exec_ok_of_isOk (op := unshield alice carol 60 hash1) (by decide +kernel))).1

/-- C27: and the first successful call with a hash pays exactly the amount it states (unless it is a payment of
zero or of the shard's account to itself). -/
theorem C27_first_pays (c : Cfg) (s0 s1 : Chain) (o : Origin) (shard : ShardId) (ben : AccountId)
    (amount : Nat) (hash : H256) (hnew : s0.br.executed hash = none) (hv : amount ≠ 0) (hne : shard ≠ ben)
    (h1 : exec c s0 (.ext o (.unshieldFunds shard ben amount hash)) = .ok s1) :
    Moved c.ed s0.bal s1.bal shard ben amount ∧
    s1.br.events = .unshieldedFunds shard ben amount :: s0.br.events := by
  obtain ⟨a, e, l, _, (⟨h5, b, n, h6, _, rfl⟩ | ⟨k, n, h5, _⟩)⟩ := unshieldFunds_ok.mp h1
  · exact ⟨moved_of_transfer h6 hv hne, rfl⟩
  · rw [hnew] at h5; simp at h5

/-- Carol's confirmation of Alice's call succeeds, but does not pay again. -/
example : (accepted cfg start bridgeHistory).length = 5 ∧ (run cfg start bridgeHistory).bal.free carol = 60 ∧
    (run cfg start bridgeHistory).bal.free shard7 = 40 := by
  decide +kernel

/-! ### C28 The confirmation counter counts confirmations -/

/-- C28: from a fresh bridge on, the stored count of a call hash is the number of successful unshielding calls
with this hash (modulo 2^64, the size of the counter), and there is no entry exactly if there was no such call. -/
theorem C28_counter (c : Cfg) (s0 : Chain) (ops : List Op) (hash : H256) (h0 : s0.br.executed hash = none) :
    ((run c s0 ops).br.executed hash = none ↔ unshieldCount hash (accepted c s0 ops) = 0) ∧
    ((run c s0 ops).br.executed hash).getD 0 = unshieldCount hash (accepted c s0 ops) % 2 ^ 64 := by
  refine history_induction (c := c) (s0 := s0) (P := fun s acc =>
    (s.br.executed hash = none ↔ unshieldCount hash acc = 0) ∧
    (s.br.executed hash).getD 0 = unshieldCount hash acc % 2 ^ 64) ?_ ?_ ops
  · simp [h0, unshieldCount]
  · rintro s s' op acc ⟨ih1, ih2⟩ hx
    rcases executed_effect hx hash with ⟨hn, h⟩ | ⟨hn, n, hadd, h⟩
    · have e : unshieldCount hash (acc ++ [(s, op)]) = unshieldCount hash acc := by
        simp [unshieldCount, hn]
      rw [e, h]; exact ⟨ih1, ih2⟩
    · have e : unshieldCount hash (acc ++ [(s, op)]) = unshieldCount hash acc + 1 := by
        simp [unshieldCount, hn]
      rw [e, h]
      refine ⟨by simp, ?_⟩
      simp only [Option.getD_some]
      rw [ih2] at hadd
      unfold plainAdd u64Max at hadd
      split at hadd
      · simp only [Except.ok.injEq] at hadd; omega
      · split at hadd
        · simp at hadd
        · simp only [Except.ok.injEq] at hadd; omega

example : start.br.executed hash1 = none ∧ (run cfg start bridgeHistory).br.executed hash1 = some 2 ∧
    unshieldCount hash1 (accepted cfg start bridgeHistory) = 2 ∧
    (run cfg start bridgeHistory).br.executed hash2 = none := by
  decide +kernel

/-! ### C29 Shard status is bounded and has one entry per signer -/

/-- C29: at any time every shard status has at most 10 entries, one per signer, none later than the current
block. -/
theorem C29_status_ok (c : Cfg) (s0 : Chain) (ops : List Op) (h0 : FreshBridge s0) (shard : ShardId) :
    (statusOf (run c s0 ops) shard).length ≤ 10 ∧ ((statusOf (run c s0 ops) shard).map (·.signer)).Nodup ∧
    ∀ i ∈ statusOf (run c s0 ops) shard, i.lastActivity ≤ (run c s0 ops).block :=
  statusOk_run (statusOk_fresh h0) ops shard

example : (statusOf (run cfg start bridgeHistory) shard7).length ≤ 10 :=
  (C29_status_ok cfg start bridgeHistory ⟨fun _ => rfl, fun _ => rfl, fun _ => rfl⟩ shard7).1

/-- C29: one call changes the status of a shard only by the activity of its signer, a registered enclave, whose
entry is replaced in place or appended; or by root purging an account. All other entries and their order are
kept. -/
theorem C29_touch_own_entry (c : Cfg) (s0 s' : Chain) (ops : List Op) (h0 : FreshBridge s0) (op : Op)
    (h : exec c (run c s0 ops) op = .ok s') (shard : ShardId) :
    statusOf s' shard = statusOf (run c s0 ops) shard ∨
    (∃ a k e, op = .ext (.signed a) k ∧ (run c s0 ops).tx.sovereign a = some e ∧
      statusOf s' shard = touchedList (statusOf (run c s0 ops) shard) ⟨a, e.mrEnclave, (run c s0 ops).block⟩ ∧
      (statusOf s' shard).filter (fun i => i.signer ≠ a) =
        (statusOf (run c s0 ops) shard).filter (fun i => i.signer ≠ a)) ∨
    (∃ a, op = .ext .root (.purgeEnclave shard a) ∧
      statusOf s' shard = (statusOf (run c s0 ops) shard).filter fun i => i.signer ≠ a) := by
  have hok := statusOk_run (c := c) (statusOk_fresh h0) ops shard
  rcases status_effect h shard with h | ⟨a, k, e, h1, h2, h, _⟩ | ⟨a, l, h1, hl, h⟩
  · left; simp [statusOf, h]
  · right; left
    have e1 : statusOf s' shard =
        touchedList (statusOf (run c s0 ops) shard) ⟨a, e.mrEnclave, (run c s0 ops).block⟩ := by
      rw [← touchList_eq hok.2.1]; simp [statusOf, h]
    exact ⟨a, k, e, h1, h2, e1, by rw [e1]; exact touchedList_others _ ⟨a, e.mrEnclave, _⟩⟩
  · right; right
    exact ⟨a, h1, by simp [statusOf, h, hl]⟩

example : FreshBridge start ∧ (statusOf (run cfg start bridgeHistory) shard7).map (·.signer) = [alice, carol] ∧
    (statusOf (run cfg start (bridgeHistory ++ [.newBlock 1, unshield alice bob 10 hash2])) shard7).map
      (fun i => (i.signer, i.lastActivity)) = [(alice, 8), (carol, 7)] :=
  ⟨⟨fun _ => rfl, fun _ => rfl, fun _ => rfl⟩, by decide +kernel, by decide +kernel⟩

/-! ### C30 Shard config upgrades are enacted exactly at their block -/

/-- C30: after an update with a delay on a shard that has a configuration, the configuration in effect before
stays in effect until the scheduled block, and from then on it is the new one, as long as the configuration is
not updated again. (The scheduled block is capped by the block number type.) -/
theorem C30_upgrade_timeline (c : Cfg) (s s' : Chain) (o : Origin) (shard : ShardId) (cfg old : ShardConfig)
    (delay : Nat) (hold : configInEffect s shard s.block = some old)
    (h : exec c s (.ext o (.updateShardConfig shard cfg delay)) = .ok s') (ops : List Op)
    (hops : ∀ op ∈ ops, ∀ o cfg d, op ≠ .ext o (.updateShardConfig shard cfg d)) (n : Nat)
    (hn : (run c s' ops).block ≤ n) :
    configInEffect (run c s' ops) shard n = some (if n < min (s.block + delay) c.blockMax then old else cfg) := by
  have hkeep : ∀ n, (run c s' ops).block ≤ n →
      configInEffect (run c s' ops) shard n = configInEffect s' shard n := by
    refine run_invariant' (c := c) (Q := fun op => ∀ o cfg d, op ≠ .ext o (.updateShardConfig shard cfg d))
      (P := fun st => ∀ n, st.block ≤ n → configInEffect st shard n = configInEffect s' shard n) ?_ ?_ ops hops
    · intro a b op hq ih hx n hn
      rcases inEffect_effect hx shard with h | ⟨o, cfg, d, h, _⟩
      · rw [h n (Nat.le_trans (exec_block_le hx) hn), ih n (Nat.le_trans (exec_block_le hx) hn)]
      · exact absurd h (hq o cfg d)
    · intro n _; rfl
  rw [hkeep n hn]
  have hcfg : s'.br.config shard = some (newConfig c s shard cfg delay) := by
    rcases updateShardConfig_ok.mp h with ⟨rfl, rfl⟩ | ⟨a, e, l, rfl, h1, h2, h3, h4, rfl⟩ <;> simp
  have hnew : newConfig c s shard cfg delay =
      { active := old, pending := some cfg, upgradeAt := some (min (s.block + delay) c.blockMax) } := by
    unfold newConfig; rw [hold]; rfl
  rw [hnew] at hcfg
  simp only [configInEffect, hcfg, Option.map_some, UpgradableShardConfig.inEffect, Option.some.injEq]
  by_cases h1 : n < min (s.block + delay) c.blockMax
  · rw [if_pos h1, if_neg (by omega)]
  · rw [if_neg h1, if_pos (by omega)]

/-- The hypotheses hold for Alice's upgrade of a shard, announced for two blocks later, with other calls after it. -/
example (n : Nat) (hn : 8 ≤ n) :
    configInEffect (run cfg (run cfg start [enroll alice 7, .ext .root (.updateShardConfig shard7 (config 7) 0),
      .ext (.signed alice) (.updateShardConfig shard7 (config 8) 2)]) [.newBlock 1, shield bob 50]) shard7 n =
    some (if n < 9 then config 7 else config 8) :=
  C30_upgrade_timeline cfg
    (run cfg start [enroll alice 7, .ext .root (.updateShardConfig shard7 (config 7) 0)]) _ _ shard7 (config 8) (config 7) 2
    (by decide +kernel) (exec_ok_of_isOk (op := .ext (.signed alice) (.updateShardConfig shard7 (config 8) 2)) (by decide +kernel))
    [.newBlock 1, shield bob 50] (by simp [shield]) n (Nat.le_trans (by decide +kernel) hn)

/-- C30: the first configuration of a shard is in effect immediately and stays so until it is updated. -/
theorem C30_first_immediately (c : Cfg) (s s' : Chain) (o : Origin) (shard : ShardId) (cfg : ShardConfig)
    (delay : Nat) (hnew : s.br.config shard = none)
    (h : exec c s (.ext o (.updateShardConfig shard cfg delay)) = .ok s') (n : Nat) :
    configInEffect s' shard n = some cfg := by
  have hcfg : s'.br.config shard = some (newConfig c s shard cfg delay) := by
    rcases updateShardConfig_ok.mp h with ⟨rfl, rfl⟩ | ⟨a, e, l, rfl, h1, h2, h3, h4, rfl⟩ <;> simp
  simp only [configInEffect, hcfg, Option.map_some, newConfig, hnew, Option.map_none,
    UpgradableShardConfig.inEffect]

example (n : Nat) : configInEffect (step cfg start (.ext .root (.updateShardConfig shard7 (config 9) 5))) shard7 n =
    some (config 9) :=
  C30_first_immediately cfg start _ _ shard7 (config 9) 5 rfl
    (exec_ok_of_isOk (op := .ext .root (.updateShardConfig shard7 (config 9) 5)) (by decide +kernel)) n

/-- C30: no other operation changes the configuration in effect, now or in the future. -/
theorem C30_lazy_invisible (c : Cfg) (s s' : Chain) (op : Op) (shard : ShardId)
    (hop : ∀ o cfg d, op ≠ .ext o (.updateShardConfig shard cfg d)) (h : exec c s op = .ok s') (n : Nat)
    (hn : s.block ≤ n) : configInEffect s' shard n = configInEffect s shard n := by
  rcases inEffect_effect h shard with h | ⟨o, cfg, d, h, _⟩
  · exact h n hn
  · exact absurd h (hop o cfg d)

/-- Code 7 is scheduled to be replaced by code 8 at block 9; then only code 8 may act. -/
def upgradeHistory : List Op :=
  [enroll alice 7, enroll bob 8, .ext .root (.updateShardConfig shard7 (config 7) 0),
   .ext (.signed alice) (.updateShardConfig shard7 (config 8) 2)]

example : (accepted cfg start upgradeHistory).length = 4 ∧
    (configInEffect (run cfg start upgradeHistory) shard7 8) = some (config 7) ∧
    (configInEffect (run cfg start upgradeHistory) shard7 9) = some (config 8) ∧
    (configInEffect (run cfg start (upgradeHistory.take 2)) shard7 7) = none ∧
    (accepted cfg (run cfg start (upgradeHistory ++ [.newBlock 1]))
      [unshield alice carol 0 hash1, unshield bob carol 0 hash1]).length = 1 := by
  decide +kernel

/-! ### C31 Only root or the shard's own enclaves can change its config -/

/-- C31: if an operation changes the configuration in effect for a shard that has one, now or at any later
block, then it is an update by root or by a registered enclave whose measurement is the fingerprint in effect. -/
theorem C31_config_authorized (c : Cfg) (s s' : Chain) (op : Op) (shard : ShardId) (old : ShardConfig)
    (hold : configInEffect s shard s.block = some old) (h : exec c s op = .ok s') (n : Nat) (hn : s.block ≤ n)
    (hch : configInEffect s' shard n ≠ configInEffect s shard n) :
    ∃ o cfg delay, op = .ext o (.updateShardConfig shard cfg delay) ∧
      (o = .root ∨ ∃ a e, o = .signed a ∧ s.tx.sovereign a = some e ∧ e.mrEnclave = old.fingerprint) := by
  rcases inEffect_effect h shard with h | ⟨o, cfg, d, h1, _, h2⟩
  · exact absurd (h n hn) hch
  · refine ⟨o, cfg, d, h1, ?_⟩
    rcases h2 with h2 | ⟨a, e, ha, he, h3⟩
    · exact .inl h2
    · exact .inr ⟨a, e, ha, he, h3 old hold⟩

/-- Bob, who runs code 8, cannot change the configuration. -/
example : (accepted cfg (run cfg start (upgradeHistory.take 3))
    [.ext (.signed bob) (.updateShardConfig shard7 (config 8) 0),
     .ext (.signed carol) (.updateShardConfig shard7 (config 8) 0),
     .ext (.signed alice) (.updateShardConfig shard7 (config 8) 0)]).length = 1 := by
  decide +kernel

/-! ### C32 Shard calls require the right registered enclave -/

/-- C32: the three calls that act for a shard succeed only if signed by a registered enclave whose measurement
is the fingerprint in effect for the shard. -/
theorem C32_right_enclave (c : Cfg) (s s' : Chain) (o : Origin) (shard : ShardId) (k : Call)
    (hk : (∃ bh bn root, k = .confirmProcessedParentchainBlock shard bh bn root) ∨
      (∃ ben amount hash, k = .unshieldFunds shard ben amount hash) ∨
      (∃ anc cand, k = .confirmImportedSidechainBlock shard anc cand))
    (h : exec c s (.ext o k) = .ok s') : ∃ a, o = .signed a ∧ RightEnclave s shard a := by
  rcases hk with ⟨bh, bn, root, rfl⟩ | ⟨ben, amount, hash, rfl⟩ | ⟨anc, cand, rfl⟩
  · obtain ⟨a, e, l, ⟨rfl, h1, h2, h3, h4⟩, _⟩ := confirmProcessed_ok.mp h
    exact ⟨a, rfl, e, h1, h2⟩
  · obtain ⟨a, e, l, ⟨rfl, h1, h2, h3, h4⟩, _⟩ := unshieldFunds_ok.mp h
    exact ⟨a, rfl, e, h1, h2⟩
  · obtain ⟨a, e, l, _, ⟨rfl, h1, h2, h3, h4⟩, _⟩ := Sidechain.confirmImported_ok.mp h
    exact ⟨a, rfl, e, h1, h2⟩

example : ∃ a, Origin.signed alice = .signed a ∧ RightEnclave (run cfg start (bridgeHistory.take 3)) shard7 a :=
  C32_right_enclave cfg _ _ _ shard7 _ (.inr (.inl ⟨carol, 60, hash1, rfl⟩))
    (exec_ok_of_isOk (op := unshield alice carol 60 hash1) (by decide +kernel))

/-- C32: conversely, confirming a parentchain block succeeds for every right enclave that is listed in the
shard status or finds a free place there. -/
theorem C32_confirm_iff (c : Cfg) (s0 : Chain) (ops : List Op) (h0 : FreshBridge s0) (a : AccountId)
    (shard : ShardId) (bh root : H256) (bn : Nat) :
    (∃ s', exec c (run c s0 ops) (.ext (.signed a) (.confirmProcessedParentchainBlock shard bh bn root)) = .ok s') ↔
      RightEnclave (run c s0 ops) shard a ∧
      (a ∈ (statusOf (run c s0 ops) shard).map (·.signer) ∨ (statusOf (run c s0 ops) shard).length < 10) := by
  obtain ⟨hlen, hnd, _⟩ := statusOk_run (c := c) (statusOk_fresh h0) ops shard
  generalize hs : run c s0 ops = s at *
  have hl : ∀ fp, (touched s shard a fp s.block).length ≤ 10 ↔
      (a ∈ (statusOf s shard).map (·.signer) ∨ (statusOf s shard).length < 10) := by
    intro fp
    have e : touched s shard a fp s.block = touchedList (statusOf s shard) ⟨a, fp, s.block⟩ :=
      touchList_eq hnd
    rw [e, ← List.length_map (f := fun i : SignerStatus => i.signer), touchedList_signers]
    simp only
    split
    · rename_i hm; simp [hm, hlen]
    · rename_i hm
      simp only [hm, false_or, List.length_append, List.length_map, List.length_singleton]
      omega
  constructor
  · rintro ⟨s', h⟩
    obtain ⟨b, e, l, ⟨hb, h1, h2, h3, h4⟩, _⟩ := confirmProcessed_ok.mp h
    simp only [Origin.signed.injEq] at hb
    subst hb
    exact ⟨⟨e, h1, h2⟩, (hl _).mp (h3 ▸ h4)⟩
  · rintro ⟨⟨e, h1, h2⟩, h3⟩
    exact ⟨_, confirmProcessed_ok.mpr ⟨a, e, _, ⟨rfl, h1, h2, rfl, (hl _).mpr h3⟩, rfl⟩⟩

example : FreshBridge start ∧ (accepted cfg (run cfg start [enroll alice 7, enroll bob 8])
    [.ext (.signed alice) (.confirmProcessedParentchainBlock shard7 hash1 5 hash2),
     .ext (.signed bob) (.confirmProcessedParentchainBlock shard7 hash1 5 hash2),
     .ext (.signed carol) (.confirmProcessedParentchainBlock shard7 hash1 5 hash2)]).length = 1 :=
  ⟨⟨fun _ => rfl, fun _ => rfl, fun _ => rfl⟩, by decide +kernel⟩

/-! ### C33 Shielding and unshielding move exactly the stated amount -/

/-- C33: shielding moves exactly the amount from the sender to the shard's account. -/
theorem C33_shield_exact (c : Cfg) (s s' : Chain) (o : Origin) (shard : ShardId) (inc : Bytes) (amount : Nat)
    (h : exec c s (.ext o (.shieldFunds shard inc amount)) = .ok s') :
    ∃ a, o = .signed a ∧ ((amount = 0 ∨ a = shard) ∧ s'.bal = s.bal ∨ Moved c.ed s.bal s'.bal a shard amount) ∧
      s'.br.events = .shieldFunds shard inc amount :: s.br.events := by
  obtain ⟨a, b, rfl, hb, rfl⟩ := shieldFunds_ok.mp h
  refine ⟨a, rfl, ?_, rfl⟩
  by_cases hv : amount = 0 ∨ a = shard
  · rcases Balances.transfer_ok hb with ⟨_, rfl⟩ | ⟨h1, h2, _⟩
    · exact .inl ⟨hv, rfl⟩
    · rcases hv with hv | hv
      · exact absurd hv h1
      · exact absurd hv h2
  · simp only [not_or] at hv
    exact .inr (moved_of_transfer hb hv.1 hv.2)

example : ∃ a, Origin.signed bob = .signed a ∧
    (((100 = 0 ∨ a = shard7) ∧ (step cfg start (shield bob 100)).bal = start.bal) ∨
      Moved cfg.ed start.bal (step cfg start (shield bob 100)).bal a shard7 100) ∧
    (step cfg start (shield bob 100)).br.events = .shieldFunds shard7 [1, 2] 100 :: start.br.events :=
  C33_shield_exact cfg start _ _ shard7 [1, 2] 100 (exec_ok_of_isOk (op := shield bob 100) (by decide +kernel))

/-- C33: unshielding moves exactly the amount from the shard's account to the beneficiary if the call hash is
new, and nothing otherwise. -/
theorem C33_unshield_exact (c : Cfg) (s s' : Chain) (o : Origin) (shard : ShardId) (ben : AccountId)
    (amount : Nat) (hash : H256) (h : exec c s (.ext o (.unshieldFunds shard ben amount hash)) = .ok s') :
    (s.br.executed hash = none →
      ((amount = 0 ∨ shard = ben) ∧ s'.bal = s.bal ∨ Moved c.ed s.bal s'.bal shard ben amount)) ∧
    (s.br.executed hash ≠ none → s'.bal = s.bal) := by
  obtain ⟨a, e, l, _, (⟨h5, b, n, hb, _, rfl⟩ | ⟨k, n, h5, _, rfl⟩)⟩ := unshieldFunds_ok.mp h
  · refine ⟨fun _ => ?_, fun h => absurd h5 h⟩
    by_cases hv : amount = 0 ∨ shard = ben
    · rcases Balances.transfer_ok hb with ⟨_, rfl⟩ | ⟨h1, h2, _⟩
      · exact .inl ⟨hv, rfl⟩
      · rcases hv with hv | hv
        · exact absurd hv h1
        · exact absurd hv h2
    · simp only [not_or] at hv
      exact .inr (moved_of_transfer hb hv.1 hv.2)
  · exact ⟨fun h => by rw [h5] at h; simp at h, fun _ => rfl⟩

example : (exec cfg start (shield bob 100)).isOk = true ∧
    (step cfg start (shield bob 100)).bal.free bob = 400 ∧ (step cfg start (shield bob 100)).bal.free shard7 = 100 ∧
    -- leaving dust
    (step cfg start (shield bob 495)).bal.free bob = 0 ∧ (step cfg start (shield bob 495)).bal.issuance = 1495 := by
  decide +kernel

/-! ### C34 Accounts are only debited with their owner's consent -/

/-- The account is the vault of a shard that is legitimately operated: root configured the shard at some time, or
an enclave whose measurement is the shard id was registered (`acc` is the history). -/
def OperatedShard (c : Cfg) (acc : List (Chain × Op)) (shard : ShardId) : Prop :=
  (∃ p ∈ acc, ∃ cfg delay, p.2 = .ext .root (.updateShardConfig shard cfg delay)) ∨
  (∃ p ∈ acc, ∃ a proof url m e, p.2 = .ext (.signed a) (.registerSgxEnclave proof url m) ∧
    (step c p.1 p.2).tx.sovereign a = some e ∧ e.mrEnclave = shard)

/-- The full claim: nobody's balance decreases unless they sign, they are slashed, or their account is the vault
of an operated shard. It is false for the code (see `C34_refuted`). -/
def C34_Full : Prop :=
  ∀ (c : Cfg) (s0 s' : Chain) (ops : List Op) (op : Op) (a : AccountId), NoEnclaves s0 → FreshBridge s0 →
    exec c (run c s0 ops) op = .ok s' → s'.bal.free a < (run c s0 ops).bal.free a →
    (∃ k, op = .ext (.signed a) k) ∨ (∃ n, op = .slash a n) ∨
    OperatedShard c (accepted c s0 (ops ++ [op])) a

/-- Carol registers any enclave, configures the "shard" Alice for it, and takes Alice's money. -/
theorem C34_refuted : ¬ C34_Full := by
  intro h
  let op1 := enroll carol 9
  let op2 : Op := .ext (.signed carol) (.updateShardConfig alice (config 9) 0)
  let op3 : Op := .ext (.signed carol) (.unshieldFunds alice carol 900 hash1)
  have h1 : exec cfg start op1 = .ok (step cfg start op1) := exec_ok_of_isOk (by decide +kernel)
  have h2 : exec cfg (step cfg start op1) op2 = .ok (step cfg (step cfg start op1) op2) :=
    exec_ok_of_isOk (by decide +kernel)
  have h3 : exec cfg (step cfg (step cfg start op1) op2) op3 = .ok (step cfg (step cfg (step cfg start op1) op2) op3) :=
    exec_ok_of_isOk (by decide +kernel)
  have hacc : accepted cfg start ([op1, op2] ++ [op3]) = [(start, op1), (step cfg start op1, op2),
      (step cfg (step cfg start op1) op2, op3)] := by
    rw [List.cons_append, accepted_cons_ok h1, List.cons_append, accepted_cons_ok h2, List.nil_append,
      accepted_cons_ok h3]
    rfl
  have hless : (step cfg (step cfg (step cfg start op1) op2) op3).bal.free alice < (run cfg start [op1, op2]).bal.free alice := by
    decide +kernel
  rcases h cfg start _ [op1, op2] op3 alice ⟨fun _ => rfl, fun _ => rfl⟩ ⟨fun _ => rfl, fun _ => rfl, fun _ => rfl⟩ h3 hless with
    ⟨k, hk⟩ | ⟨n, hn⟩ | hop
  · simp only [op3, Op.ext.injEq, Origin.signed.injEq] at hk
    exact absurd hk.1 (by decide)
  · simp [op3] at hn
  · rw [hacc] at hop
    rcases hop with ⟨p, hp, cfg, d, hc⟩ | ⟨p, hp, a, proof, url, m, e, hr, he, hm⟩
    · simp only [List.mem_cons, List.not_mem_nil, or_false] at hp
      rcases hp with rfl | rfl | rfl <;> simp [op1, op2, op3, enroll] at hc
    · simp only [List.mem_cons, List.not_mem_nil, or_false] at hp
      rcases hp with rfl | rfl | rfl
      · simp only [op1, enroll, Op.ext.injEq, Origin.signed.injEq] at hr
        obtain ⟨rfl, _⟩ := hr
        have h4 : ((step cfg start op1).tx.sovereign carol).map (·.mrEnclave) ≠ some alice := by decide +kernel
        simp only at he
        rw [he] at h4
        simp only [Option.map_some, ne_eq, Option.some.injEq] at h4
        exact h4 hm
      · simp [op2] at hr
      · simp [op3] at hr

/-- C34, partial: a balance decreases only by a call signed by the owner, by slashing, or by an unshielding call
(with a new hash) for the shard whose id is the account, signed by a registered enclave whose measurement is the
fingerprint in effect for that shard. Missing: anybody who can register an enclave can bring a fingerprint into
effect for an account that has no shard configuration. -/
theorem C34_debit_cases_partial (c : Cfg) (s s' : Chain) (op : Op) (a : AccountId) (h : exec c s op = .ok s')
    (hd : s'.bal.free a < s.bal.free a) :
    (∃ k, op = .ext (.signed a) k) ∨ (∃ n, op = .slash a n) ∨
    (∃ b ben amount hash, op = .ext (.signed b) (.unshieldFunds a ben amount hash) ∧ RightEnclave s a b ∧
      s.br.executed hash = none) := free_decrease h a hd

/-- The account of the shard is debited when Alice unshields. -/
example : (exec cfg (run cfg start (bridgeHistory.take 3)) (unshield alice carol 60 hash1)).isOk = true ∧
    (step cfg (run cfg start (bridgeHistory.take 3)) (unshield alice carol 60 hash1)).bal.free shard7 <
      (run cfg start (bridgeHistory.take 3)).bal.free shard7 := by decide +kernel

/-- C34, partial: an account that nobody has configured as a shard, and whose id is not the measurement of a
registered enclave, is debited only by its own calls or by slashing. -/
theorem C34_ordinary_accounts_partial (c : Cfg) (s0 s' : Chain) (ops : List Op) (op : Op) (a : AccountId)
    (h0 : FreshBridge s0) (hcfg : ∀ op ∈ ops, ∀ o cfg d, op ≠ .ext o (.updateShardConfig a cfg d))
    (hm : ∀ b e, (run c s0 ops).tx.sovereign b = some e → e.mrEnclave ≠ a)
    (h : exec c (run c s0 ops) op = .ok s') (hd : s'.bal.free a < (run c s0 ops).bal.free a) :
    (∃ k, op = .ext (.signed a) k) ∨ (∃ n, op = .slash a n) := by
  have hnone : (run c s0 ops).br.config a = none := by
    refine run_invariant' (c := c) (Q := fun op => ∀ o cfg d, op ≠ .ext o (.updateShardConfig a cfg d))
      (P := fun s => s.br.config a = none) ?_ (h0.2.1 a) ops hcfg
    intro s s' op hq ih hx
    rcases config_effect hx a with h | h | ⟨o, cfg, d, h, _⟩
    · rw [h, ih]
    · rw [h, ih]; rfl
    · exact absurd h (hq o cfg d)
  rcases free_decrease h a hd with h | h | ⟨b, ben, amount, hash, _, ⟨e, he, hfp⟩, _⟩
  · exact .inl h
  · exact .inr h
  · refine absurd ?_ (hm b e he)
    rw [hfp]
    simp [fingerprintInEffect, configInEffect, hnone]

example : (run cfg start bridgeHistory).bal.free bob < (run cfg start (bridgeHistory.take 2)).bal.free bob ∧
    FreshBridge start ∧ (∀ op ∈ bridgeHistory, ∀ o cfg d, op ≠ .ext o (.updateShardConfig bob cfg d)) := by
  refine ⟨by decide +kernel, ⟨fun _ => rfl, fun _ => rfl, fun _ => rfl⟩, ?_⟩
  intro op h
  simp only [bridgeHistory, List.mem_cons, List.not_mem_nil, or_false] at h
  rcases h with rfl | rfl | rfl | rfl | rfl <;> simp [enroll, shield, unshield]

/-! ### C35 publish_hash limits and topics -/

/-- C35: publishing a hash succeeds exactly for a registered enclave (listed in the status of its own shard, or
finding a free place there) with at most 5 extra topics and 100 bytes of data; the event carries the measurement
of the caller, also as the last topic. -/
theorem C35_publish_hash (c : Cfg) (s0 : Chain) (ops : List Op) (h0 : FreshBridge s0) (o : Origin) (hash : H256)
    (topics : List H256) (data : Bytes) :
    ((∃ s', exec c (run c s0 ops) (.ext o (.publishHash hash topics data)) = .ok s') ↔
      ∃ a e, o = .signed a ∧ (run c s0 ops).tx.sovereign a = some e ∧ topics.length ≤ 5 ∧ data.length ≤ 100 ∧
        (a ∈ (statusOf (run c s0 ops) e.mrEnclave).map (·.signer) ∨
          (statusOf (run c s0 ops) e.mrEnclave).length < 10)) ∧
    ∀ s', exec c (run c s0 ops) (.ext o (.publishHash hash topics data)) = .ok s' →
      ∃ a e, o = .signed a ∧ (run c s0 ops).tx.sovereign a = some e ∧
        s'.br.events = .publishedHash (topics ++ [e.mrEnclave]) e.mrEnclave hash data :: (run c s0 ops).br.events := by
  have hok := statusOk_run (c := c) (statusOk_fresh h0) ops
  generalize run c s0 ops = s at *
  have hl : ∀ a (e : SgxEnclave), (touched s e.fingerprint a e.fingerprint s.block).length ≤ 10 ↔
      (a ∈ (statusOf s e.mrEnclave).map (·.signer) ∨ (statusOf s e.mrEnclave).length < 10) := by
    intro a e
    obtain ⟨hlen, hnd, _⟩ := hok e.mrEnclave
    have h1 : touched s e.fingerprint a e.fingerprint s.block =
        touchedList (statusOf s e.mrEnclave) ⟨a, e.mrEnclave, s.block⟩ := touchList_eq hnd
    rw [h1, ← List.length_map (f := fun i : SignerStatus => i.signer), touchedList_signers]
    simp only
    split
    · rename_i hm; simp [hm, hlen]
    · rename_i hm
      simp only [hm, false_or, List.length_append, List.length_map, List.length_singleton]
      omega
  refine ⟨⟨?_, ?_⟩, ?_⟩
  · rintro ⟨s', h⟩
    obtain ⟨a, e, l, rfl, h1, h2, h3, h4, h5, _⟩ := publishHash_ok.mp h
    exact ⟨a, e, rfl, h1, h4, h5, (hl a e).mp (h2 ▸ h3)⟩
  · rintro ⟨a, e, rfl, h1, h4, h5, h6⟩
    exact ⟨_, publishHash_ok.mpr ⟨a, e, _, rfl, h1, rfl, (hl a e).mpr h6, h4, h5, rfl⟩⟩
  · intro s' h
    obtain ⟨a, e, l, rfl, h1, h2, h3, h4, h5, rfl⟩ := publishHash_ok.mp h
    exact ⟨a, e, rfl, h1, rfl⟩

example : FreshBridge start ∧ (accepted cfg (run cfg start [enroll alice 7])
    [.ext (.signed alice) (.publishHash hash1 [hash2, hash2, hash2, hash2, hash2] (bytes 100 1)),
     .ext (.signed alice) (.publishHash hash1 [hash2, hash2, hash2, hash2, hash2, hash2] []),
     .ext (.signed alice) (.publishHash hash1 [] (bytes 101 1)),
     .ext (.signed bob) (.publishHash hash1 [] [])]).length = 1 :=
  ⟨⟨fun _ => rfl, fun _ => rfl, fun _ => rfl⟩, by decide +kernel⟩

/-! ### C36 Purging removes exactly the subject -/

/-- C36: purging succeeds exactly for root and a shard that has a status; it removes exactly the entries of the
subject and changes nothing else in the bridge except for its event. -/
theorem C36_purge_exact (c : Cfg) (s0 : Chain) (ops : List Op) (h0 : FreshBridge s0) (o : Origin) (shard : ShardId)
    (a : AccountId) :
    ((∃ s', exec c (run c s0 ops) (.ext o (.purgeEnclave shard a)) = .ok s') ↔
      o = .root ∧ (run c s0 ops).br.status shard ≠ none) ∧
    exec c (run c s0 ops) (.ext o (.purgeEnclave shard a)) ≠ .error .panic ∧
    ∀ s', exec c (run c s0 ops) (.ext o (.purgeEnclave shard a)) = .ok s' →
      statusOf s' shard = (statusOf (run c s0 ops) shard).filter (fun i => i.signer ≠ a) ∧
      (∀ shard', shard' ≠ shard → s'.br.status shard' = (run c s0 ops).br.status shard') ∧
      s'.br.config = (run c s0 ops).br.config ∧ s'.br.executed = (run c s0 ops).br.executed ∧
      s'.br.events = .purgedEnclave shard a :: (run c s0 ops).br.events := by
  have hok := statusOk_run (c := c) (statusOk_fresh h0) ops shard
  generalize run c s0 ops = s at *
  have hlen : ∀ l, s.br.status shard = some l → (l.filter fun i => decide (i.signer ≠ a)).length ≤ 10 := by
    intro l hl
    have := hok.1
    simp only [statusOf, hl, Option.getD_some] at this
    exact Nat.le_trans (List.length_filter_le _ _) this
  refine ⟨⟨?_, ?_⟩, ?_, ?_⟩
  · rintro ⟨s', h⟩
    obtain ⟨l, rfl, h1, _⟩ := purgeEnclave_ok.mp h
    exact ⟨rfl, by rw [h1]; simp⟩
  · rintro ⟨rfl, h1⟩
    cases hl : s.br.status shard with
    | none => exact absurd hl h1
    | some l => exact ⟨_, purgeEnclave_ok.mpr ⟨l, rfl, hl, hlen l hl, rfl⟩⟩
  · intro h
    simp only [exec, dispatch, purgeEnclave] at h
    cases o <;> simp [ensureRoot, Bind.bind, Except.bind] at h
    cases hl : s.br.status shard with
    | none => simp [okOr, hl] at h
    | some l =>
      have := hlen l hl
      simp [okOr, hl, ensure, maxShardStatusSigners] at h this
      simp [this] at h
  · intro s' h
    obtain ⟨l, rfl, h1, h2, rfl⟩ := purgeEnclave_ok.mp h
    refine ⟨?_, ?_, rfl, rfl, rfl⟩
    · simp [statusOf, h1]
    · intro x hx; simp [hx]

example : FreshBridge start ∧ (run cfg start bridgeHistory).br.status shard7 ≠ none ∧
    (statusOf (step cfg (run cfg start bridgeHistory) (.ext .root (.purgeEnclave shard7 alice))) shard7).map (·.signer) =
      [carol] :=
  ⟨⟨fun _ => rfl, fun _ => rfl, fun _ => rfl⟩, by decide +kernel, by decide +kernel⟩

/-! ### C37 most_recent_shard_update returns a most recent entry -/

/-- C37: nothing is returned exactly if there are no entries; otherwise the last of the entries with maximal last
activity. -/
theorem C37_most_recent (s : Chain) (shard : ShardId) :
    (mostRecentShardUpdate s shard = none ↔ statusOf s shard = []) ∧
    ∀ x, mostRecentShardUpdate s shard = some x →
      (∀ y ∈ statusOf s shard, y.lastActivity ≤ x.lastActivity) ∧
      ∃ pre post, statusOf s shard = pre ++ x :: post ∧ ∀ y ∈ post, y.lastActivity < x.lastActivity := by
  unfold mostRecentShardUpdate statusOf
  cases h : s.br.status shard with
  | none => simp
  | some l =>
    constructor
    · simp only [List.getLast?_eq_none_iff, Option.getD_some]
      constructor
      · intro h
        have := List.length_mergeSort (le := fun a b : SignerStatus => decide (a.lastActivity ≤ b.lastActivity)) l
        rw [h] at this
        exact List.length_eq_zero_iff.mp this.symm
      · rintro rfl; simp
    · intro x hx
      exact mergeSort_getLast (fun i : SignerStatus => i.lastActivity) hx

example : ((statusOf (run cfg start (bridgeHistory ++ [.newBlock 1, unshield alice bob 10 hash2])) shard7).map
    fun i => (i.signer, i.lastActivity)) = [(alice, 8), (carol, 7)] := by decide +kernel

/-! ### C38 Maintenance mode blocks state transitions -/

/-- The full claim. It is false for the code (see `C38_refuted`). -/
def C38_Full : Prop :=
  ∀ (c : Cfg) (s s' : Chain) (o : Origin) (shard : ShardId) (k : Call) (cfg : ShardConfig),
    ((∃ bh bn root, k = .confirmProcessedParentchainBlock shard bh bn root) ∨
      (∃ ben amount hash, k = .unshieldFunds shard ben amount hash) ∨
      (∃ anc cand, k = .confirmImportedSidechainBlock shard anc cand)) →
    configInEffect s shard s.block = some cfg → cfg.maintenance = true → exec c s (.ext o k) ≠ .ok s'

/-- Money is paid out of a shard in maintenance mode. -/
theorem C38_refuted : ¬ C38_Full := by
  intro h
  exact h cfg (run cfg start [enroll alice 7, shield bob 100,
      .ext .root (.updateShardConfig shard7 { config 7 with maintenance := true } 0)]) _ (.signed alice) shard7
    (.unshieldFunds shard7 carol 60 hash1) { config 7 with maintenance := true }
    (.inr (.inl ⟨_, _, _, rfl⟩)) (by decide +kernel) rfl (exec_ok_of_isOk (by decide +kernel))

/-- C38, partial: what does stop a shard is a configuration whose fingerprint belongs to no registered enclave.
Missing: the flag for maintenance mode has no effect. -/
theorem C38_fingerprint_stops_partial (c : Cfg) (s s' : Chain) (o : Origin) (shard : ShardId) (k : Call)
    (cfg : ShardConfig)
    (hk : (∃ bh bn root, k = .confirmProcessedParentchainBlock shard bh bn root) ∨
      (∃ ben amount hash, k = .unshieldFunds shard ben amount hash) ∨
      (∃ anc cand, k = .confirmImportedSidechainBlock shard anc cand))
    (hcfg : configInEffect s shard s.block = some cfg)
    (hfp : ∀ a e, s.tx.sovereign a = some e → e.mrEnclave ≠ cfg.fingerprint) : exec c s (.ext o k) ≠ .ok s' := by
  intro h
  obtain ⟨a, _, e, he, hm⟩ := C32_right_enclave c s s' o shard k hk h
  apply hfp a e he
  simpa [fingerprintInEffect, hcfg] using hm

example : configInEffect (run cfg start [.ext .root (.updateShardConfig shard7 (config 9) 0)]) shard7 7 =
    some (config 9) ∧ (∀ a e, (run cfg start [.ext .root (.updateShardConfig shard7 (config 9) 0)]).tx.sovereign a =
      some e → e.mrEnclave ≠ (config 9).fingerprint) :=
  ⟨by decide +kernel, fun _ _ h => by
    have : (run cfg start [.ext .root (.updateShardConfig shard7 (config 9) 0)]).tx.sovereign = fun _ => none := rfl
    rw [this] at h; simp at h⟩

/-! ### C74 Shards do not interfere -/

/-- The full claim, for unshielding: if a call on shard `B` would pay now, it still pays after a successful call
on another shard `A`. It is false for the code (see `C74_refuted`). -/
def C74_Full : Prop :=
  ∀ (c : Cfg) (s sA sB sAB : Chain) (oA oB : Origin) (A B : ShardId) (benA benB : AccountId) (nA nB : Nat)
    (hA hB : H256), A ≠ B →
    exec c s (.ext oA (.unshieldFunds A benA nA hA)) = .ok sA →
    exec c s (.ext oB (.unshieldFunds B benB nB hB)) = .ok sB → Moved c.ed s.bal sB.bal B benB nB →
    exec c sA (.ext oB (.unshieldFunds B benB nB hB)) = .ok sAB → Moved c.ed sA.bal sAB.bal B benB nB

/-- A call on another shard with the same hash uses up the hash: the second payment does not happen. -/
theorem C74_refuted : ¬ C74_Full := by
  intro h
  have hfree : ∀ s : Chain, s.bal.free = s.bal.free := fun _ => rfl
  let s := run cfg start [enroll alice 7, enroll bob 8, shield bob 100,
    .ext (.signed bob) (.shieldFunds (Arr.fill 32 8) [] 100)]
  have h1 : exec cfg s (unshield alice carol 20 hash1) = .ok _ := exec_ok_of_isOk (by decide +kernel)
  have h2 : exec cfg s (.ext (.signed bob) (.unshieldFunds (Arr.fill 32 8) carol 30 hash1)) = .ok _ :=
    exec_ok_of_isOk (by decide +kernel)
  have h3 : exec cfg (step cfg s (unshield alice carol 20 hash1))
      (.ext (.signed bob) (.unshieldFunds (Arr.fill 32 8) carol 30 hash1)) = .ok _ := exec_ok_of_isOk (by decide +kernel)
  have hm := (C27_first_pays cfg s _ (.signed bob) (Arr.fill 32 8) carol 30 hash1 (by decide +kernel) (by decide)
    (by decide +kernel) h2).1
  have := (h cfg s _ _ _ _ _ shard7 (Arr.fill 32 8) carol carol 20 30 hash1 hash1 (by decide +kernel) h1 h2 hm h3).receiver
  revert this
  decide +kernel

/-- C74, partial: with different call hashes a successful call pays whatever happened on other shards before.
Missing: the hashes of all shards are kept in one map. -/
theorem C74_unshield_partial (c : Cfg) (s sB : Chain) (ops : List Op) (oB : Origin) (B : ShardId) (benB : AccountId)
    (nB : Nat) (hB : H256) (hops : ∀ op ∈ ops, op.unshieldHash ≠ some hB) (hnew : s.br.executed hB = none)
    (hn : nB ≠ 0) (hne : B ≠ benB)
    (h : exec c (run c s ops) (.ext oB (.unshieldFunds B benB nB hB)) = .ok sB) :
    Moved c.ed (run c s ops).bal sB.bal B benB nB := by
  refine (C27_first_pays c _ sB oB B benB nB hB ?_ hn hne h).1
  refine run_invariant' (c := c) (Q := fun op => op.unshieldHash ≠ some hB)
    (P := fun s => s.br.executed hB = none) ?_ hnew ops hops
  intro s s' op hq ih hx
  rcases executed_effect hx hB with ⟨_, h⟩ | ⟨h, _⟩
  · rw [h, ih]
  · exact absurd h hq

/-- Another shard has paid with another hash before. -/
example : (∀ op ∈ bridgeHistory, op.unshieldHash ≠ some hash2) ∧ start.br.executed hash2 = none ∧
    shard7 ≠ bob ∧ (exec cfg (run cfg start bridgeHistory) (unshield carol bob 20 hash2)).isOk = true := by
  decide +kernel

/-- C74, partial: a call that names shard `A` changes neither the status nor the configuration nor the latest
finalized block of another shard, nor the counter of any call hash but its own. -/
theorem C74_frame_partial (c : Cfg) (s s' : Chain) (o : Origin) (k : Call) (A B : ShardId) (hk : k.namesShard = some A)
    (hne : A ≠ B) (h : exec c s (.ext o k) = .ok s') :
    s'.br.status B = s.br.status B ∧ s'.br.config B = s.br.config B ∧ s'.sc.latest B = s.sc.latest B ∧
    ∀ hash, (Op.ext o k).unshieldHash ≠ some hash → s'.br.executed hash = s.br.executed hash := by
  have hex : ∀ hash, (Op.ext o k).unshieldHash ≠ some hash → s'.br.executed hash = s.br.executed hash := by
    intro hash hh
    rcases executed_effect h hash with ⟨_, h⟩ | ⟨h, _⟩
    · exact h
    · exact absurd h hh
  refine and_assoc.mp (and_assoc.mp ⟨?_, hex⟩)
  clear hex
  have hne' := hne.symm
  have hdue : dueConfig s A s.block B = s.br.config B := by simp [dueConfig, hne']
  cases k <;> simp only [Call.namesShard, Option.some.injEq, reduceCtorEq] at hk <;> subst hk
  case confirmProcessedParentchainBlock =>
    obtain ⟨a, e, l, _, rfl⟩ := confirmProcessed_ok.mp h
    simp [hne', hdue]
  case shieldFunds =>
    obtain ⟨a, b, rfl, hb, rfl⟩ := shieldFunds_ok.mp h
    simp
  case unshieldFunds =>
    obtain ⟨a, e, l, _, (⟨h5, b, n, hb, _, rfl⟩ | ⟨k, n, h5, _, rfl⟩)⟩ := unshieldFunds_ok.mp h <;> simp [hne', hdue]
  case updateShardConfig =>
    rcases updateShardConfig_ok.mp h with ⟨rfl, rfl⟩ | ⟨a, e, l, rfl, h1, h2, h3, h4, rfl⟩ <;> simp [hne', hdue]
  case purgeEnclave =>
    obtain ⟨l, rfl, h1, h2, rfl⟩ := purgeEnclave_ok.mp h
    simp [hne', hdue]
  case confirmImportedSidechainBlock =>
    obtain ⟨a, e, l, first, _, _, (⟨_, rfl⟩ | ⟨_, _, rfl⟩)⟩ := Sidechain.confirmImported_ok.mp h <;> simp [hne', hdue]

example : (accepted cfg start (bridgeHistory ++ [.ext .root (.updateShardConfig (Arr.fill 32 8) (config 7) 3)])).length = 6 ∧
    (Call.updateShardConfig (Arr.fill 32 8) (config 7) 3).namesShard = some (Arr.fill 32 8) ∧
    statusOf (run cfg start bridgeHistory) shard7 ≠ [] := by decide +kernel

/-! ### C78 The enclaves of a shard can always act -/

/-- The full claim. It is false for the code (see `C78_refuted`). -/
def C78_Full : Prop :=
  ∀ (c : Cfg) (s0 : Chain) (ops : List Op) (a : AccountId) (shard : ShardId) (bh root : H256) (bn : Nat),
    FreshBridge s0 → RightEnclave (run c s0 ops) shard a →
    ∃ s', exec c (run c s0 ops) (.ext (.signed a) (.confirmProcessedParentchainBlock shard bh bn root)) = .ok s'

/-- Eleven enclaves of the same code, each of which reports a processed block. -/
def crowd : List Op :=
  (List.range 11).flatMap fun i => [enroll (Arr.fill 32 (UInt8.ofNat (20 + i))) 7,
    .ext (.signed (Arr.fill 32 (UInt8.ofNat (20 + i)))) (.confirmProcessedParentchainBlock shard7 hash1 1 hash2)]

/-- The eleventh is refused. -/
theorem C78_refuted : ¬ C78_Full := by
  intro h
  have hr : RightEnclave (run cfg start crowd) shard7 (Arr.fill 32 30) := by
    have : ((run cfg start crowd).tx.sovereign (Arr.fill 32 30)).map (·.mrEnclave) =
        some (fingerprintInEffect (run cfg start crowd) shard7 (run cfg start crowd).block) := by decide +kernel
    rw [Option.map_eq_some_iff] at this
    exact this
  obtain ⟨s', hs⟩ := h cfg start crowd (Arr.fill 32 30) shard7 hash1 hash2 1
    ⟨fun _ => rfl, fun _ => rfl, fun _ => rfl⟩ hr
  have : (exec cfg (run cfg start crowd) (.ext (.signed (Arr.fill 32 30))
      (.confirmProcessedParentchainBlock shard7 hash1 1 hash2))).isOk = false := by decide +kernel
  rw [hs] at this
  simp [Except.isOk, Except.toBool] at this

/-- C78, partial: an enclave of the shard can act if it has acted before and was not purged, or while fewer than
ten signers are listed. Missing: entries never expire, so that ten signers keep the eleventh out. -/
theorem C78_listed_or_room_partial (c : Cfg) (s0 : Chain) (ops : List Op) (h0 : FreshBridge s0) (a : AccountId)
    (shard : ShardId) (bh root : H256) (bn : Nat) (hr : RightEnclave (run c s0 ops) shard a)
    (hl : a ∈ (statusOf (run c s0 ops) shard).map (·.signer) ∨ (statusOf (run c s0 ops) shard).length < 10) :
    ∃ s', exec c (run c s0 ops) (.ext (.signed a) (.confirmProcessedParentchainBlock shard bh bn root)) = .ok s' :=
  (C32_confirm_iff c s0 ops h0 a shard bh root bn).mpr ⟨hr, hl⟩

example : FreshBridge start ∧ RightEnclave (run cfg start bridgeHistory) shard7 carol ∧
    carol ∈ (statusOf (run cfg start bridgeHistory) shard7).map (·.signer) :=
  ⟨⟨fun _ => rfl, fun _ => rfl, fun _ => rfl⟩,
    (C32_confirm_iff cfg start bridgeHistory ⟨fun _ => rfl, fun _ => rfl, fun _ => rfl⟩ carol shard7 hash1 hash2 4).1
      ⟨_, exec_ok_of_isOk (by decide +kernel)⟩ |>.1, by decide +kernel⟩

/-- C78, partial: root can always make room: after purging any listed signer, every enclave of the shard can act. -/
theorem C78_after_purge_partial (c : Cfg) (s0 : Chain) (ops : List Op) (h0 : FreshBridge s0) (a b : AccountId)
    (shard : ShardId) (bh root : H256) (bn : Nat) (hr : RightEnclave (run c s0 ops) shard a)
    (hb : b ∈ (statusOf (run c s0 ops) shard).map (·.signer)) :
    ∃ s1 s2, exec c (run c s0 ops) (.ext .root (.purgeEnclave shard b)) = .ok s1 ∧
      exec c s1 (.ext (.signed a) (.confirmProcessedParentchainBlock shard bh bn root)) = .ok s2 := by
  have hsome : (run c s0 ops).br.status shard ≠ none := by
    intro h; simp [statusOf, h] at hb
  obtain ⟨hiff, _, heff⟩ := C36_purge_exact c s0 ops h0 .root shard b
  obtain ⟨s1, h1⟩ := hiff.mpr ⟨rfl, hsome⟩
  obtain ⟨hst, _, hcfg, _⟩ := heff s1 h1
  have hrun : run c s0 (ops ++ [.ext .root (.purgeEnclave shard b)]) = s1 := by
    rw [run_snoc, step_of_ok h1]
  have hlen := (statusOk_run (c := c) (statusOk_fresh h0) ops shard).1
  have hlt : (statusOf s1 shard).length < 10 := by
    rw [hst]
    refine Nat.lt_of_lt_of_le ?_ hlen
    obtain ⟨i, hi, rfl⟩ := List.mem_map.mp hb
    refine List.length_filter_lt_length_iff_exists.mpr ⟨i, hi, by simp⟩
  have htx : s1.tx = (run c s0 ops).tx := exec_frame h1 .teerex (by simp [Op.parts, Call.parts])
  have hbl := (clock_frame h1 (by simp [Op.parts, Call.parts])).2
  have hr1 : RightEnclave s1 shard a := by
    obtain ⟨e, he, hm⟩ := hr
    refine ⟨e, by rw [htx, he], ?_⟩
    rw [hm, hbl]
    simp only [fingerprintInEffect, configInEffect, hcfg]
  obtain ⟨s2, h2⟩ := C78_listed_or_room_partial c s0 (ops ++ [.ext .root (.purgeEnclave shard b)]) h0 a shard bh root bn
    (by rw [hrun]; exact hr1) (by rw [hrun]; exact .inr hlt)
  exact ⟨s1, s2, h1, by rwa [hrun] at h2⟩

example : FreshBridge start ∧ Arr.fill 32 25 ∈ (statusOf (run cfg start crowd) shard7).map (·.signer) ∧
    (accepted cfg (run cfg start crowd) [
      .ext (.signed (Arr.fill 32 30)) (.confirmProcessedParentchainBlock shard7 hash1 1 hash2),
      .ext .root (.purgeEnclave shard7 (Arr.fill 32 25)),
      .ext (.signed (Arr.fill 32 30)) (.confirmProcessedParentchainBlock shard7 hash1 1 hash2)]).length = 2 :=
  ⟨⟨fun _ => rfl, fun _ => rfl, fun _ => rfl⟩, by decide +kernel, by decide +kernel⟩

/-! ### C79 Only its own code configures a shard first -/

/-- The full claim: the first configuration of a shard is made by root or by an enclave whose measurement is the
shard id. It is false for the code (see `C79_refuted`). -/
def C79_Full : Prop :=
  ∀ (c : Cfg) (s s' : Chain) (o : Origin) (shard : ShardId) (cfg : ShardConfig) (delay : Nat),
    s.br.config shard = none → exec c s (.ext o (.updateShardConfig shard cfg delay)) = .ok s' →
    o = .root ∨ ∃ a e, o = .signed a ∧ s.tx.sovereign a = some e ∧ e.mrEnclave = shard

/-- Code 9 takes over the shard of code 7. -/
theorem C79_refuted : ¬ C79_Full := by
  intro h
  rcases h cfg (run cfg start [enroll carol 9]) _ (.signed carol) shard7 (config 9) 0 (by decide +kernel)
    (exec_ok_of_isOk (by decide +kernel)) with h | ⟨a, e, ha, he, hm⟩
  · simp at h
  · simp only [Origin.signed.injEq] at ha
    subst ha
    have h4 : ((run cfg start [enroll carol 9]).tx.sovereign carol).map (·.mrEnclave) ≠ some shard7 := by
      decide +kernel
    rw [he] at h4
    exact h4 (by simpa using hm)

/-- C79, partial: the first configuration is made by root or by some registered enclave. Missing: the enclave
need not have anything to do with the shard. -/
theorem C79_registered_partial (c : Cfg) (s s' : Chain) (o : Origin) (shard : ShardId) (cfg : ShardConfig)
    (delay : Nat) (h : exec c s (.ext o (.updateShardConfig shard cfg delay)) = .ok s') :
    o = .root ∨ ∃ a e, o = .signed a ∧ s.tx.sovereign a = some e := by
  rcases updateShardConfig_ok.mp h with ⟨rfl, rfl⟩ | ⟨a, e, l, rfl, h1, _⟩
  · exact .inl rfl
  · exact .inr ⟨a, e, rfl, h1⟩

example : (accepted cfg (run cfg start [enroll carol 9]) [
    .ext (.signed carol) (.updateShardConfig shard7 (config 9) 0),
    .ext (.signed bob) (.updateShardConfig shard7 (config 9) 0)]).length = 1 := by decide +kernel

end Verif
