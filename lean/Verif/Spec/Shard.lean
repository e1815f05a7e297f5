import Verif.Model.State

/-!
# Specification vocabulary for shards

What it means for a configuration to be in effect, without reference to the functions of the pallet.
-/

namespace Verif

/-- The configuration in effect at a block: the scheduled one from its block on, before that the active one. -/
def UpgradableShardConfig.inEffect (u : UpgradableShardConfig) (block : Nat) : ShardConfig :=
  match u.pending, u.upgradeAt with
  | some p, some t => if t ≤ block then p else u.active
  | _, _ => u.active

/-- The configuration of a shard in effect at a block, if it has one. -/
def configInEffect (s : Chain) (shard : ShardId) (block : Nat) : Option ShardConfig :=
  (s.br.config shard).map fun u => u.inEffect block

/-- The measurement that may act for a shard at a block: the one of its configuration, or the shard id itself if
the shard has no configuration. -/
def fingerprintInEffect (s : Chain) (shard : ShardId) (block : Nat) : Fingerprint :=
  match configInEffect s shard block with
  | some cfg => cfg.fingerprint
  | none => shard

end Verif
