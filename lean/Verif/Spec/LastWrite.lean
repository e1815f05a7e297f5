import Verif.Model.Runtime

/-!
# Specification: what was written last
-/

namespace Verif

/-- The last value that the accepted operations wrote, if any. -/
def lastWritten {α : Type} (writes : Op → Option α) (acc : List (Chain × Op)) : Option α := (acc.filterMap fun p => writes p.2).getLast?

/-- The same, for values that depend on the state in which the operation was made. -/
def lastWrittenIn {α : Type} (writes : Chain × Op → Option α) (acc : List (Chain × Op)) : Option α := (acc.filterMap writes).getLast?

/-- What an update says about the exchange rate of a pair by a source: no rate is the rate zero. -/
def writesRate (pair src : Bytes) : Op → Option Nat
  | .ext _ (.updateExchangeRate src' pair' r) => if src' = src ∧ pair' = pair then some (r.getD 0) else none
  | _ => none

/-- What an update says about the data of a source with some name. -/
def writesBlob (name src : Bytes) : Op → Option Bytes
  | .ext _ (.updateOracle name' src' b) => if src' = src ∧ name' = name then some b else none
  | _ => none

/-- Whether the code `fp` is put on the whitelist of a source (`true`) or taken off it (`false`). -/
def writesListed (src : Bytes) (fp : Fingerprint) : Op → Option Bool
  | .ext _ (.addToWhitelist src' fp') => if src' = src ∧ fp' = fp then some true else none
  | .ext _ (.removeFromWhitelist src' fp') => if src' = src ∧ fp' = fp then some false else none
  | _ => none

/-- The two security flags: whether enclaves may skip attestation, and whether debug enclaves are allowed. -/
def writesFlags : Op → Option (Bool × Bool)
  | .ext _ (.setSecurityFlags skip debug) => some (skip, debug)
  | _ => none

/-- The location of an asset, or that it has none any more. -/
def writesLocation (id : AssetId) : Op → Option (Option Location)
  | .ext _ (.registerReserveAsset id' loc) => if id' = id then some (some loc) else none
  | .ext _ (.unregisterReserveAsset id') => if id' = id then some none else none
  | _ => none

/-- The shard for which a call of the enclave `e` counts as activity: the shard that the call is about; publishing a hash counts for
the shard named after the code of the enclave. Shielding and invoking do not count. -/
def Call.activeIn (e : SgxEnclave) : Call → Option ShardId
  | .confirmProcessedParentchainBlock shard _ _ _ => some shard
  | .unshieldFunds shard _ _ _ => some shard
  | .updateShardConfig shard _ _ => some shard
  | .confirmImportedSidechainBlock shard _ _ => some shard
  | .publishHash _ _ _ => some e.mrEnclave
  | _ => none

/-- What an accepted operation says about the entry of account `a` in the status of a shard: activity of the account writes its
code and the block; a purge by root removes the entry. -/
def writesEntry (shard : ShardId) (a : AccountId) : Chain × Op → Option (Option SignerStatus)
  | (s, .ext (.signed b) k) =>
    match s.tx.sovereign a with
    | some e => if b = a ∧ k.activeIn e = some shard then some (some ⟨a, e.mrEnclave, s.block⟩) else none
    | none => none
  | (_, .ext .root (.purgeEnclave shard' b)) => if shard' = shard ∧ b = a then some none else none
  | _ => none

end Verif
