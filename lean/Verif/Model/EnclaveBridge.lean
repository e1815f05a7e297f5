import Verif.Model.Teerex

/-!
# Model of enclave-bridge/src/lib.rs and primitives/enclave-bridge/src/lib.rs
-/

namespace Verif

/-- `MAX_SHARD_STATUS_SIGNER_COUNT`, primitives/enclave-bridge/src/lib.rs L39. -/
def maxShardStatusSigners : Nat := 10

/-- `ShardConfig::new`, primitives/enclave-bridge/src/lib.rs L54-61. -/
def ShardConfig.new (fp : Fingerprint) : ShardConfig :=
  { fingerprint := fp, maxInstances := none, authorities := none, maintenance := false }

/-- `From<ShardConfig> for UpgradableShardConfig`, primitives/enclave-bridge/src/lib.rs L74-84. -/
def UpgradableShardConfig.ofConfig (cfg : ShardConfig) : UpgradableShardConfig :=
  { active := cfg, pending := none, upgradeAt := none }

/-- `with_pending_upgrade`, primitives/enclave-bridge/src/lib.rs L87-95. -/
def UpgradableShardConfig.withPendingUpgrade (u : UpgradableShardConfig) (cfg : ShardConfig) (at_ : Nat) :
    UpgradableShardConfig :=
  { u with pending := some cfg, upgradeAt := some at_ }

namespace EnclaveBridge

/-- `TOPICS_LIMIT`, enclave-bridge/src/lib.rs L49. -/
def topicsLimit : Nat := 5
/-- `DATA_LENGTH_LIMIT`, enclave-bridge/src/lib.rs L51. -/
def dataLengthLimit : Nat := 100

/-- `deposit_event`, enclave-bridge/src/lib.rs L76. -/
def emit (s : Chain) (e : BrEvent) : Chain := { s with br := { s.br with events := e :: s.br.events } }

/-- Insert into `ShardConfigRegistry`, enclave-bridge/src/lib.rs L364, L443-446. -/
def setConfig (s : Chain) (shard : ShardId) (u : UpgradableShardConfig) : Chain :=
  { s with br := { s.br with config := upd s.br.config shard (some u) } }

/-- `T::AccountId::decode(&mut shard.encode())`, enclave-bridge/src/lib.rs L213-214, L245-246: both are 32
bytes, so decoding never fails and is the identity on bytes. -/
def bondingAccount (shard : ShardId) : AccountId := shard

/-- `get_maybe_updated_shard_config`, enclave-bridge/src/lib.rs L432-453: the config and the state after
a due update was applied. -/
def getMaybeUpdatedShardConfig (s : Chain) (shard : ShardId) (block : Nat) (apply : Bool) :
    Option ShardConfig × Chain :=
  match s.br.config shard with
  | none => (none, s)
  | some current =>
    match current.upgradeAt.filter fun at_ => decide (at_ ≤ block) with
    | none => (some current.active, s)
    | some _ =>
      match current.pending with
      | none => (some current.active, s)
      | some due => (some due, if apply then setConfig s shard (.ofConfig due) else s)

/-- The in-place update of the status vector, enclave-bridge/src/lib.rs L471-475: the first entry of the signer
is overwritten; without one the new entry is appended. -/
def touchList (l : List SignerStatus) (new : SignerStatus) : List SignerStatus :=
  match l.findIdx? fun i => i.signer = new.signer with
  | some i => l.set i new
  | none => l ++ [new]

/-- `touch_shard`, enclave-bridge/src/lib.rs L456-490: the new status list and the new state. -/
def touchShard (s : Chain) (shard : ShardId) (signer : AccountId) (fp : Fingerprint) (block : Nat) :
    Except Err (List SignerStatus × Chain) := do
  let new : SignerStatus := { signer := signer, fingerprint := fp, lastActivity := block }
  let statuses := match s.br.status shard with
    | some l => touchList l new
    | none => [new]
  ensure (decide (statuses.length ≤ maxShardStatusSigners)) .tooManyEnclaves
  .ok (statuses, { s with br := { s.br with status := upd s.br.status shard (some statuses) } })

/-- `get_sovereign_enclave_and_touch_shard`, enclave-bridge/src/lib.rs L414-430. -/
def getSovereignEnclaveAndTouchShard (s : Chain) (signer : AccountId) (shard : ShardId) (block : Nat) :
    Except Err (SgxEnclave × List SignerStatus × Chain) := do
  let enclave ← Teerex.getSovereignEnclave s signer
  let (cfg, s) := getMaybeUpdatedShardConfig s shard block true
  ensure (enclave.fingerprint == (cfg.getD (ShardConfig.new shard)).fingerprint) .wrongFingerprintForShard
  let (status, s) ← touchShard s shard signer enclave.fingerprint block
  .ok (enclave, status, s)

/-- `most_recent_shard_update`, enclave-bridge/src/lib.rs L492-499. `sort_by_key` is a stable sort. -/
def mostRecentShardUpdate (s : Chain) (shard : ShardId) : Option SignerStatus :=
  match s.br.status shard with
  | some l => (l.mergeSort fun a b => decide (a.lastActivity ≤ b.lastActivity)).getLast?
  | none => none

/-- `invoke`, enclave-bridge/src/lib.rs L162-167. The ciphertext of the request is only logged. -/
def invoke (s : Chain) (o : Origin) (shard : ShardId) (_cyphertext : Bytes) : Except Err Chain := do
  let _ ← ensureSigned o
  .ok (emit s (.indirectInvocationRegistered shard))

/-- `confirm_processed_parentchain_block`, enclave-bridge/src/lib.rs L172-199. -/
def confirmProcessedParentchainBlock (s : Chain) (o : Origin) (shard : ShardId) (blockHash : H256)
    (blockNumber : Nat) (merkleRoot : H256) : Except Err Chain := do
  let sender ← ensureSigned o
  let (_, _, s) ← getSovereignEnclaveAndTouchShard s sender shard s.block
  .ok (emit s (.processedParentchainBlock shard blockHash merkleRoot blockNumber))

/-- `T::Currency::transfer(.., AllowDeath)?`, enclave-bridge/src/lib.rs L215-220, L249-254. -/
def doTransfer (c : Cfg) (s : Chain) (src dst : AccountId) (amount : Nat) : Except Err Chain := do
  let bal ← mapErr Err.bal (s.bal.transfer c.ed c.balMax src dst amount)
  .ok { s with bal := bal }

/-- `shield_funds`, enclave-bridge/src/lib.rs L206-227. -/
def shieldFunds (c : Cfg) (s : Chain) (o : Origin) (shard : ShardId) (incognito : Bytes) (amount : Nat) :
    Except Err Chain := do
  let sender ← ensureSigned o
  let s ← doTransfer c s sender (bondingAccount shard) amount
  .ok (emit s (.shieldFunds shard incognito amount))

/-- `u64::MAX`, the maximum of the confirmation counter, enclave-bridge/src/lib.rs L150-151. -/
def u64Max : Nat := 2 ^ 64 - 1

/-- `unshield_funds`, enclave-bridge/src/lib.rs L232-267. -/
def unshieldFunds (c : Cfg) (s : Chain) (o : Origin) (shard : ShardId) (beneficiary : AccountId)
    (amount : Nat) (callHash : H256) : Except Err Chain := do
  let sender ← ensureSigned o
  let (_, _, s) ← getSovereignEnclaveAndTouchShard s sender shard s.block
  let s ←
    if (s.br.executed callHash).isNone then do
      let s ← doTransfer c s (bondingAccount shard) beneficiary amount
      let s := { s with br := { s.br with executed := upd s.br.executed callHash (some 0) } }
      pure (emit s (.unshieldedFunds shard beneficiary amount))
    else pure s
  let n ← plainAdd c u64Max ((s.br.executed callHash).getD 0) 1
  .ok { s with br := { s.br with executed := upd s.br.executed callHash (some n) } }

/-- `publish_hash`, enclave-bridge/src/lib.rs L282-309. -/
def publishHash (s : Chain) (o : Origin) (hash : H256) (extraTopics : List H256) (data : Bytes) :
    Except Err Chain := do
  let sender ← ensureSigned o
  let enclave ← Teerex.getSovereignEnclave s sender
  let (_, s) ← touchShard s enclave.fingerprint sender enclave.fingerprint s.block
  ensure (decide (extraTopics.length ≤ topicsLimit)) .tooManyTopics
  ensure (decide (data.length ≤ dataLengthLimit)) .dataTooLong
  .ok (emit s (.publishedHash (extraTopics ++ [enclave.fingerprint]) enclave.fingerprint hash data))

/-- `update_shard_config`, enclave-bridge/src/lib.rs L317-374. -/
def updateShardConfig (c : Cfg) (s : Chain) (o : Origin) (shard : ShardId) (cfg : ShardConfig)
    (delay : Nat) : Except Err Chain := do
  let maybeSender ← ensureSignedOrRoot o
  let (u, s) ←
    match (getMaybeUpdatedShardConfig s shard s.block false).1 with
    | some old => do
      let s ←
        match maybeSender with
        | some sender => do
          let enclave ← Teerex.getSovereignEnclave s sender
          ensure (old.fingerprint == enclave.fingerprint) .wrongFingerprintForShard
          let (_, s) ← touchShard s shard sender enclave.fingerprint s.block
          pure s
        | none => pure s
      pure ((UpgradableShardConfig.ofConfig old).withPendingUpgrade cfg (satAdd c.blockMax s.block delay), s)
    | none => do
      let s ←
        match maybeSender with
        | some sender => do
          let enclave ← Teerex.getSovereignEnclave s sender
          let (_, s) ← touchShard s shard sender enclave.fingerprint s.block
          pure s
        | none => pure s
      pure (UpgradableShardConfig.ofConfig cfg, s)
  .ok (emit (setConfig s shard u) (.shardConfigUpdated shard))

/-- `purge_enclave_from_shard_status`, enclave-bridge/src/lib.rs L379-408. The `try_into().expect(..)` on the
filtered vector is the explicit panic. -/
def purgeEnclave (s : Chain) (o : Origin) (shard : ShardId) (subject : AccountId) : Except Err Chain := do
  ensureRoot o
  let l ← okOr (s.br.status shard) .shardNotFound
  let l := l.filter fun i => i.signer ≠ subject
  ensure (decide (l.length ≤ maxShardStatusSigners)) .panic
  let s := { s with br := { s.br with status := upd s.br.status shard (some l) } }
  .ok (emit s (.purgedEnclave shard subject))

end EnclaveBridge

end Verif
