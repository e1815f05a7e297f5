import Verif.Model.Runtime
import Verif.Spec.Shard

/-!
# Specification: which configuration of a shard is in effect
-/

namespace Verif

/-- The updates of the configuration of a shard among the accepted operations: the block of the update, the new configuration, and the
delay. -/
def updatesOf (shard : ShardId) (acc : List (Chain × Op)) : List (Nat × ShardConfig × Nat) :=
  acc.filterMap fun
    | (s, .ext _ (.updateShardConfig x cfg delay)) => if x = shard then some (s.block, cfg, delay) else none
    | _ => none

/-- The block from which on an update is due: the block of the update plus the delay, capped by the largest block number. -/
def dueAt (c : Cfg) (u : Nat × ShardConfig × Nat) : Nat := min (u.1 + u.2.2) c.blockMax

/-- Update number `i` takes effect by block `n`: it is the first one; or it is due by then, and it was due not later than the block of
any later update, so none of them replaced it while it was pending. -/
def TakesEffect (c : Cfg) (ups : List (Nat × ShardConfig × Nat)) (i n : Nat) : Prop :=
  ∃ u, ups[i]? = some u ∧ (i = 0 ∨ (dueAt c u ≤ n ∧ ∀ j v, i < j → ups[j]? = some v → dueAt c u ≤ v.1))

end Verif
