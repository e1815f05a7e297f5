import Verif.Proofs.InvTeerex
import Verif.Spec.Shard

/-!
# Inversion lemmas for enclave-bridge and sidechain
-/

namespace Verif

@[simp] theorem upd_id {K V : Type} [DecidableEq K] (m : K → V) (k : K) : upd m k (m k) = m := by
  funext x; simp only [upd]; split <;> simp_all

namespace EnclaveBridge

/-- The stored configuration after a due upgrade was applied. -/
def applyDue (block : Nat) (u : UpgradableShardConfig) : UpgradableShardConfig :=
  match u.pending, u.upgradeAt with
  | some p, some t => if t ≤ block then .ofConfig p else u
  | _, _ => u

/-- All stored configurations after a due upgrade of one shard was applied. -/
def dueConfig (s : Chain) (shard : ShardId) (block : Nat) : ShardId → Option UpgradableShardConfig :=
  upd s.br.config shard ((s.br.config shard).map (applyDue block))

theorem getMaybe_fst (s : Chain) (shard : ShardId) (block : Nat) (apply : Bool) :
    (getMaybeUpdatedShardConfig s shard block apply).1 = configInEffect s shard block := by
  unfold getMaybeUpdatedShardConfig configInEffect
  cases h : s.br.config shard with
  | none => rfl
  | some u =>
    obtain ⟨act, pend, up⟩ := u
    cases up with
    | none => cases pend <;> simp [UpgradableShardConfig.inEffect]
    | some t =>
      by_cases ht : t ≤ block
      · cases pend <;> simp [UpgradableShardConfig.inEffect, Option.filter, ht]
      · cases pend <;> simp [UpgradableShardConfig.inEffect, Option.filter, ht]

theorem getMaybe_snd_true (s : Chain) (shard : ShardId) (block : Nat) :
    (getMaybeUpdatedShardConfig s shard block true).2 =
      { s with br := { s.br with config := dueConfig s shard block } } := by
  unfold getMaybeUpdatedShardConfig dueConfig setConfig
  cases h : s.br.config shard with
  | none =>
    have hid : upd s.br.config shard none = s.br.config := by rw [← h, upd_id]
    simp only [Option.map_none, hid]
  | some u =>
    have hid : upd s.br.config shard (some u) = s.br.config := by rw [← h, upd_id]
    obtain ⟨act, pend, up⟩ := u
    cases up with
    | none => cases pend <;> simp [applyDue, hid]
    | some t =>
      by_cases ht : t ≤ block
      · cases pend <;> simp [applyDue, Option.filter, ht, hid]
      · cases pend <;> simp [applyDue, Option.filter, ht, hid]

theorem getMaybe_true (s : Chain) (shard : ShardId) (block : Nat) :
    getMaybeUpdatedShardConfig s shard block true = (configInEffect s shard block,
      { s with br := { s.br with config := dueConfig s shard block } }) := by
  rw [← getMaybe_fst s shard block true, ← getMaybe_snd_true s shard block]

/-- The status list of a shard after its touching. -/
def touched (s : Chain) (shard : ShardId) (signer : AccountId) (fp : Fingerprint) (block : Nat) :
    List SignerStatus :=
  touchList ((s.br.status shard).getD []) ⟨signer, fp, block⟩

theorem touchShard_ok {s s' : Chain} {shard : ShardId} {signer : AccountId} {fp : Fingerprint} {block : Nat}
    {l : List SignerStatus} :
    touchShard s shard signer fp block = .ok (l, s') ↔ l = touched s shard signer fp block ∧
      l.length ≤ 10 ∧ s' = { s with br := { s.br with status := upd s.br.status shard (some l) } } := by
  unfold touchShard maxShardStatusSigners
  inv_simp
  have hs : ∀ x, touchList [] x = [x] := fun x => by simp [touchList]
  unfold touched
  cases s.br.status shard <;> simp only [Option.getD_some, Option.getD_none, hs]
  all_goals constructor
  · rintro ⟨h, rfl, rfl⟩; exact ⟨rfl, h, rfl⟩
  · rintro ⟨rfl, h, rfl⟩; exact ⟨h, rfl, rfl⟩
  · rintro ⟨h, rfl, rfl⟩; exact ⟨rfl, h, rfl⟩
  · rintro ⟨rfl, h, rfl⟩; exact ⟨h, rfl, rfl⟩

theorem touched_of_config (s : Chain) (f : ShardId → Option UpgradableShardConfig) (shard : ShardId)
    (signer : AccountId) (fp : Fingerprint) (block : Nat) :
    touched { s with br := { s.br with config := f } } shard signer fp block =
      touched s shard signer fp block := rfl

theorem getSovereign_ok {s s' : Chain} {shard : ShardId} {signer : AccountId} {block : Nat} {e : SgxEnclave}
    {l : List SignerStatus} :
    getSovereignEnclaveAndTouchShard s signer shard block = .ok (e, l, s') ↔
      s.tx.sovereign signer = some e ∧ e.fingerprint = fingerprintInEffect s shard block ∧
      l = touched s shard signer e.fingerprint block ∧ l.length ≤ 10 ∧
      s' = { s with br := { s.br with
        config := dueConfig s shard block
        status := upd s.br.status shard (some l) } } := by
  have hfp : ((configInEffect s shard block).getD (ShardConfig.new shard)).fingerprint =
      fingerprintInEffect s shard block := by
    unfold fingerprintInEffect
    cases configInEffect s shard block <;> rfl
  unfold getSovereignEnclaveAndTouchShard Teerex.getSovereignEnclave
  simp only [getMaybe_true]
  inv_simp
  simp only [touchShard_ok, touched_of_config, hfp]
  constructor
  · rintro ⟨e', h1, h2, l', s'', ⟨rfl, h4, rfl⟩, rfl, rfl, rfl⟩
    exact ⟨h1, h2, rfl, h4, rfl⟩
  · rintro ⟨h1, h2, rfl, h4, rfl⟩
    exact ⟨e, h1, h2, _, _, ⟨rfl, h4, rfl⟩, rfl, rfl, rfl⟩

theorem invoke_ok {s s' : Chain} {o : Origin} {shard : ShardId} {cy : Bytes} :
    invoke s o shard cy = .ok s' ↔ ∃ a, o = .signed a ∧
      s' = { s with br := { s.br with events := .indirectInvocationRegistered shard :: s.br.events } } := by
  unfold invoke emit
  inv_simp
  simp only [eq_comm]

/-- The successful entry of a shard call by a registered enclave. -/
def Entered (s : Chain) (o : Origin) (shard : ShardId) (a : AccountId) (e : SgxEnclave)
    (l : List SignerStatus) : Prop :=
  o = .signed a ∧ s.tx.sovereign a = some e ∧ e.fingerprint = fingerprintInEffect s shard s.block ∧
    l = touched s shard a e.fingerprint s.block ∧ l.length ≤ 10

theorem confirmProcessed_ok {s s' : Chain} {o : Origin} {shard : ShardId} {bh root : H256} {bn : Nat} :
    confirmProcessedParentchainBlock s o shard bh bn root = .ok s' ↔ ∃ a e l, Entered s o shard a e l ∧
      s' = { s with br := { s.br with
        config := dueConfig s shard s.block
        status := upd s.br.status shard (some l)
        events := .processedParentchainBlock shard bh root bn :: s.br.events } } := by
  unfold confirmProcessedParentchainBlock emit Entered
  inv_simp
  simp only [getSovereign_ok]
  constructor
  · rintro ⟨a, rfl, e, l, s'', ⟨h1, h2, h3, h4, rfl⟩, rfl⟩
    exact ⟨a, e, l, ⟨rfl, h1, h2, h3, h4⟩, rfl⟩
  · rintro ⟨a, e, l, ⟨rfl, h1, h2, h3, h4⟩, rfl⟩
    exact ⟨a, rfl, e, l, _, ⟨h1, h2, h3, h4, rfl⟩, rfl⟩

theorem doTransfer_ok {c : Cfg} {s s' : Chain} {src dst : AccountId} {amount : Nat} :
    doTransfer c s src dst amount = .ok s' ↔ ∃ b, s.bal.transfer c.ed c.balMax src dst amount = .ok b ∧
      s' = { s with bal := b } := by
  unfold doTransfer
  inv_simp
  simp only [eq_comm]

theorem shieldFunds_ok {c : Cfg} {s s' : Chain} {o : Origin} {shard : ShardId} {inc : Bytes} {amount : Nat} :
    shieldFunds c s o shard inc amount = .ok s' ↔ ∃ a b, o = .signed a ∧
      s.bal.transfer c.ed c.balMax a shard amount = .ok b ∧
      s' = { s with bal := b, br := { s.br with events := .shieldFunds shard inc amount :: s.br.events } } := by
  unfold shieldFunds emit bondingAccount
  inv_simp
  simp only [doTransfer_ok]
  constructor
  · rintro ⟨a, rfl, _, ⟨b, h, rfl⟩, rfl⟩; exact ⟨a, b, rfl, h, rfl⟩
  · rintro ⟨a, b, rfl, h, rfl⟩; exact ⟨a, rfl, _, ⟨b, h, rfl⟩, rfl⟩

theorem unshieldFunds_ok {c : Cfg} {s s' : Chain} {o : Origin} {shard : ShardId} {ben : AccountId}
    {amount : Nat} {hash : H256} :
    unshieldFunds c s o shard ben amount hash = .ok s' ↔ ∃ a e l, Entered s o shard a e l ∧
      ((s.br.executed hash = none ∧ ∃ b n, s.bal.transfer c.ed c.balMax shard ben amount = .ok b ∧
          plainAdd c u64Max 0 1 = .ok n ∧
          s' = { s with bal := b, br := {
            config := dueConfig s shard s.block
            status := upd s.br.status shard (some l)
            executed := upd s.br.executed hash (some n)
            events := .unshieldedFunds shard ben amount :: s.br.events } }) ∨
       (∃ k n, s.br.executed hash = some k ∧ plainAdd c u64Max k 1 = .ok n ∧
          s' = { s with br := { s.br with
            config := dueConfig s shard s.block
            status := upd s.br.status shard (some l)
            executed := upd s.br.executed hash (some n) } })) := by
  unfold unshieldFunds emit Entered bondingAccount
  inv_simp
  simp only [getSovereign_ok]
  have key : ∀ (m : H256 → Option Nat) a x y, upd (upd m a x) a y = upd m a y := by
    intro m a x y; funext z; simp only [upd]; split <;> rfl
  constructor
  · rintro ⟨a, rfl, e, l, _, ⟨h1, h2, h3, h4, rfl⟩, h5⟩
    refine ⟨a, e, l, ⟨rfl, h1, h2, h3, h4⟩, ?_⟩
    split at h5
    · rename_i hx
      simp only [bind_eq_ok, doTransfer_ok, pure_eq_ok] at h5
      obtain ⟨_, ⟨b, hb, rfl⟩, _, rfl, n, h6, h7⟩ := h5
      simp only [upd_same, Option.getD_some, Except.ok.injEq, key] at h6 h7
      exact .inl ⟨hx, b, n, hb, h6, h7.symm⟩
    · rename_i hx
      simp only [bind_eq_ok, pure_eq_ok] at h5
      obtain ⟨_, rfl, n, h6, h7⟩ := h5
      right
      obtain ⟨k, hk⟩ := Option.ne_none_iff_exists'.mp hx
      simp only [Except.ok.injEq] at h7
      have h6' : plainAdd c u64Max ((s.br.executed hash).getD 0) 1 = .ok n := h6
      rw [hk] at h6'
      exact ⟨k, n, hk, h6', h7.symm⟩
  · rintro ⟨a, e, l, ⟨rfl, h1, h2, h3, h4⟩, (⟨hx, b, n, hb, h6, rfl⟩ | ⟨k, n, hk, h6, rfl⟩)⟩
    · refine ⟨a, rfl, e, l, _, ⟨h1, h2, h3, h4, rfl⟩, ?_⟩
      rw [if_pos hx]
      simp only [bind_eq_ok, doTransfer_ok, pure_eq_ok]
      refine ⟨_, ⟨b, hb, rfl⟩, _, rfl, n, ?_⟩
      simp only [upd_same, Option.getD_some, Except.ok.injEq, key]
      exact ⟨h6, trivial⟩
    · refine ⟨a, rfl, e, l, _, ⟨h1, h2, h3, h4, rfl⟩, ?_⟩
      rw [if_neg (by simp [hk])]
      simp only [bind_eq_ok, pure_eq_ok]
      refine ⟨_, rfl, n, ?_⟩
      simp only [hk, Option.getD_some, Except.ok.injEq]
      exact ⟨h6, trivial⟩

theorem publishHash_ok {s s' : Chain} {o : Origin} {hash : H256} {topics : List H256} {data : Bytes} :
    publishHash s o hash topics data = .ok s' ↔ ∃ a e l, o = .signed a ∧ s.tx.sovereign a = some e ∧
      l = touched s e.fingerprint a e.fingerprint s.block ∧ l.length ≤ 10 ∧
      topics.length ≤ 5 ∧ data.length ≤ 100 ∧
      s' = { s with br := { s.br with
        status := upd s.br.status e.fingerprint (some l)
        events := .publishedHash (topics ++ [e.fingerprint]) e.fingerprint hash data :: s.br.events } } := by
  unfold publishHash emit Teerex.getSovereignEnclave topicsLimit dataLengthLimit
  inv_simp
  simp only [touchShard_ok]
  constructor
  · rintro ⟨a, rfl, e, h1, l, _, ⟨h2, h3, rfl⟩, h4, h5, rfl⟩
    exact ⟨a, e, l, rfl, h1, h2, h3, h4, h5, rfl⟩
  · rintro ⟨a, e, l, rfl, h1, h2, h3, h4, h5, rfl⟩
    exact ⟨a, rfl, e, h1, l, _, ⟨h2, h3, rfl⟩, h4, h5, rfl⟩

/-- The stored configuration that `update_shard_config` writes. -/
def newConfig (c : Cfg) (s : Chain) (shard : ShardId) (cfg : ShardConfig) (delay : Nat) :
    UpgradableShardConfig :=
  match configInEffect s shard s.block with
  | some old => { active := old, pending := some cfg, upgradeAt := some (satAdd c.blockMax s.block delay) }
  | none => { active := cfg, pending := none, upgradeAt := none }

theorem updateShardConfig_ok {c : Cfg} {s s' : Chain} {o : Origin} {shard : ShardId} {cfg : ShardConfig}
    {delay : Nat} :
    updateShardConfig c s o shard cfg delay = .ok s' ↔
      (o = .root ∧ s' = { s with br := { s.br with
          config := upd s.br.config shard (some (newConfig c s shard cfg delay))
          events := .shardConfigUpdated shard :: s.br.events } }) ∨
      (∃ a e l, o = .signed a ∧ s.tx.sovereign a = some e ∧
        (∀ old, configInEffect s shard s.block = some old → e.fingerprint = old.fingerprint) ∧
        l = touched s shard a e.fingerprint s.block ∧ l.length ≤ 10 ∧
        s' = { s with br := { s.br with
          config := upd s.br.config shard (some (newConfig c s shard cfg delay))
          status := upd s.br.status shard (some l)
          events := .shardConfigUpdated shard :: s.br.events } }) := by
  unfold updateShardConfig emit setConfig Teerex.getSovereignEnclave newConfig
  rw [getMaybe_fst]
  cases hc : configInEffect s shard s.block with
  | none =>
    cases o with
    | none => simp [ensureSignedOrRoot, bind_eq_ok]
    | custom n => simp [ensureSignedOrRoot, bind_eq_ok]
    | root =>
      simp only [ensureSignedOrRoot, bind_eq_ok, Except.ok.injEq, exists_eq_left', pure_eq_ok, true_and,
        reduceCtorEq, false_and, exists_false, or_false]
      exact eq_comm
    | signed a =>
      simp only [ensureSignedOrRoot]
      inv_simp
      simp only [touchShard_ok, reduceCtorEq, false_or, false_and, Origin.signed.injEq]
      constructor
      · rintro ⟨e, h4, l, _, ⟨h5, h6, rfl⟩, rfl⟩
        exact ⟨a, e, l, rfl, h4, by simp, h5, h6, rfl⟩
      · rintro ⟨_, e, l, rfl, h4, -, h5, h6, rfl⟩
        exact ⟨e, h4, l, _, ⟨h5, h6, rfl⟩, rfl⟩
  | some old =>
    cases o with
    | none => simp [ensureSignedOrRoot, bind_eq_ok]
    | custom n => simp [ensureSignedOrRoot, bind_eq_ok]
    | root =>
      simp only [ensureSignedOrRoot, bind_eq_ok, Except.ok.injEq, exists_eq_left', pure_eq_ok, true_and,
        reduceCtorEq, false_and, exists_false, or_false]
      exact eq_comm
    | signed a =>
      simp only [ensureSignedOrRoot]
      inv_simp
      simp only [touchShard_ok, reduceCtorEq, false_or, false_and, Origin.signed.injEq, Option.some.injEq,
        forall_eq']
      constructor
      · rintro ⟨e, h4, hf, l, _, ⟨h5, h6, rfl⟩, rfl⟩
        exact ⟨a, e, l, rfl, h4, hf.symm, h5, h6, rfl⟩
      · rintro ⟨_, e, l, rfl, h4, hf, h5, h6, rfl⟩
        exact ⟨e, h4, hf.symm, l, _, ⟨h5, h6, rfl⟩, rfl⟩

theorem purgeEnclave_ok {s s' : Chain} {o : Origin} {shard : ShardId} {subject : AccountId} :
    purgeEnclave s o shard subject = .ok s' ↔ ∃ l, o = .root ∧ s.br.status shard = some l ∧
      (l.filter fun i => i.signer ≠ subject).length ≤ 10 ∧
      s' = { s with br := { s.br with
        status := upd s.br.status shard (some (l.filter fun i => i.signer ≠ subject))
        events := .purgedEnclave shard subject :: s.br.events } } := by
  unfold purgeEnclave emit maxShardStatusSigners
  inv_simp
  constructor
  · rintro ⟨rfl, l, h, h1, rfl⟩; exact ⟨l, rfl, h, h1, rfl⟩
  · rintro ⟨l, rfl, h, h1, rfl⟩; exact ⟨rfl, l, h, h1, rfl⟩

end EnclaveBridge

namespace Sidechain

open EnclaveBridge

/-- The conditions on ancestor and candidate. -/
def Linked (known : Option Confirmation) (anc : Option Confirmation) (cand : Confirmation) : Prop :=
  ∀ k, known = some k → anc = some k ∧ k.number < cand.number

theorem confirmImported_ok {s s' : Chain} {o : Origin} {shard : ShardId} {anc : Option Confirmation}
    {cand : Confirmation} :
    confirmImportedSidechainBlock s o shard anc cand = .ok s' ↔ ∃ a e l first, Entered s o shard a e l ∧
      l.head? = some first ∧
      ((a ≠ first.signer ∧ s' = { s with br := { s.br with
          config := dueConfig s shard s.block
          status := upd s.br.status shard (some l) } }) ∨
       (a = first.signer ∧ Linked (s.sc.latest shard) anc cand ∧
        s' = { s with
          br := { s.br with
            config := dueConfig s shard s.block
            status := upd s.br.status shard (some l) }
          sc := {
            latest := upd s.sc.latest shard (some cand)
            events := .finalized shard cand.number cand.hash a :: s.sc.events } })) := by
  unfold confirmImportedSidechainBlock Entered finalizeBlock Linked
  inv_simp
  simp only [getSovereign_ok]
  constructor
  · rintro ⟨a, rfl, e, l, _, ⟨h1, h2, h3, h4, rfl⟩, first, h5, h6⟩
    refine ⟨a, e, l, first, ⟨rfl, h1, h2, h3, h4⟩, h5, ?_⟩
    split at h6
    · rename_i hne
      simp only [Except.ok.injEq] at h6
      exact .inl ⟨hne, h6.symm⟩
    · rename_i hne
      simp only [ne_eq, Decidable.not_not] at hne
      right
      refine ⟨hne, ?_⟩
      cases hk : s.sc.latest shard with
      | none =>
        simp only [hk] at h6
        inv_simp at h6
        exact ⟨by simp, h6.symm⟩
      | some k =>
        simp only [hk] at h6
        inv_simp at h6
        obtain ⟨p, rfl, h7, h8, h9, rfl⟩ := h6
        refine ⟨?_, rfl⟩
        rintro k' ⟨⟩
        refine ⟨?_, h7⟩
        cases p; cases k; simp_all
  · rintro ⟨a, e, l, first, ⟨rfl, h1, h2, h3, h4⟩, h5, h6⟩
    refine ⟨a, rfl, e, l, _, ⟨h1, h2, h3, h4, rfl⟩, first, h5, ?_⟩
    rcases h6 with ⟨hne, rfl⟩ | ⟨heq, hl, rfl⟩
    · rw [if_pos hne]
    · rw [if_neg (by simpa using heq)]
      cases hk : s.sc.latest shard with
      | none => rfl
      | some k =>
        simp only []
        inv_simp
        obtain ⟨hl1, hl2⟩ := hl k hk
        exact ⟨k, hl1, hl2, rfl, rfl, trivial⟩

end Sidechain

end Verif
