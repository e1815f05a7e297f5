import Verif.Model.Runtime
import Verif.Spec.Shard

/-!
# Specification vocabulary for enclave-bridge and sidechain
-/

namespace Verif

/-- The call hash of an unshielding call. -/
def Op.unshieldHash : Op → Option H256
  | .ext _ (.unshieldFunds _ _ _ hash) => some hash
  | _ => none

/-- The shard a call to the bridge or the sidechain pallet names. -/
def Call.namesShard : Call → Option ShardId
  | .updateShardConfig shard _ _ => some shard
  | .confirmProcessedParentchainBlock shard _ _ _ => some shard
  | .shieldFunds shard _ _ => some shard
  | .unshieldFunds shard _ _ _ => some shard
  | .purgeEnclave shard _ => some shard
  | .confirmImportedSidechainBlock shard _ _ => some shard
  | _ => none

/-- Number of successful unshielding calls with a hash in a history. -/
def unshieldCount (h : H256) (acc : List (Chain × Op)) : Nat :=
  (acc.filter fun p => p.2.unshieldHash = some h).length

/-- Nothing has happened on the bridge yet. -/
def FreshBridge (s : Chain) : Prop :=
  (∀ shard, s.br.status shard = none) ∧ (∀ shard, s.br.config shard = none) ∧ ∀ h, s.br.executed h = none

/-- Exactly `amount` was moved from `src` to `dst`; if less than the existential deposit would be left at
`src`, this remainder is destroyed, too. -/
structure Moved (ed : Nat) (b b' : Balances) (src dst : AccountId) (amount : Nat) : Prop where
  enough : amount ≤ b.free src
  receiver : b'.free dst = b.free dst + amount
  /-- the sender keeps the rest, or nothing if the rest is dust -/
  sender : b'.free src = b.free src - amount ∨ (b.free src - amount < ed ∧ b'.free src = 0)
  issuance : b'.issuance + (b.free src - amount - b'.free src) = b.issuance ∨
    (b.issuance < b.free src - amount - b'.free src ∧ b'.issuance = 0)
  others : ∀ a, a ≠ src → a ≠ dst → b'.free a = b.free a
  locks : b'.lock = b.lock

/-- The status list after signer `new.signer` was active: their entry is replaced in place, or appended. -/
def touchedList (l : List SignerStatus) (new : SignerStatus) : List SignerStatus :=
  if new.signer ∈ l.map (·.signer) then l.map fun i => if i.signer = new.signer then new else i
  else l ++ [new]

/-- The entries of a shard status, empty if there is none. -/
def statusOf (s : Chain) (shard : ShardId) : List SignerStatus := (s.br.status shard).getD []

/-- `a` is registered with a measurement equal to the fingerprint in effect for the shard. -/
def RightEnclave (s : Chain) (shard : ShardId) (a : AccountId) : Prop :=
  ∃ e, s.tx.sovereign a = some e ∧ e.mrEnclave = fingerprintInEffect s shard s.block

/-- What holds of every shard status. -/
def StatusOk (s : Chain) : Prop := ∀ shard,
  (statusOf s shard).length ≤ 10 ∧ ((statusOf s shard).map (·.signer)).Nodup ∧
    ∀ i ∈ statusOf s shard, i.lastActivity ≤ s.block

end Verif
