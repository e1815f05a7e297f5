import Verif.Model.Runtime
import Verif.Spec.Accept

/-!
# Specification: root hands a shard over
-/

namespace Verif

/-- Root gives the shard a configuration at once, or takes an account off its list. -/
def RootRepair (shard : ShardId) (op : Op) : Prop :=
  (∃ cfg, op = .ext .root (.updateShardConfig shard cfg 0)) ∨ ∃ b, op = .ext .root (.purgeEnclave shard b)

/-- The calls by which enclaves act for a shard. -/
inductive ShardAct (shard : ShardId) : Call → Prop
  | confirm (bh bn root) : ShardAct shard (.confirmProcessedParentchainBlock shard bh bn root)
  | pay (ben amount call) : ShardAct shard (.unshieldFunds shard ben amount call)
  | configure (cfg delay) : ShardAct shard (.updateShardConfig shard cfg delay)
  | finalize (anc cand) : ShardAct shard (.confirmImportedSidechainBlock shard anc cand)

/-- `t` differs from `s` in nothing but the status and the configuration of the shard and in the events. -/
structure OnlyShard (s t : Chain) (shard : ShardId) : Prop where
  time : t.now = s.now ∧ t.block = s.block
  bal : t.bal = s.bal
  td : t.td = s.td
  tx : t.tx = s.tx
  sc : t.sc = s.sc
  orc : t.orc = s.orc
  cl : t.cl = s.cl
  ar : t.ar = s.ar
  assets : t.assets = s.assets
  xt : t.xt = s.xt
  executed : t.br.executed = s.br.executed
  others : ∀ i, i ≠ shard → t.br.status i = s.br.status i ∧ t.br.config i = s.br.config i

end Verif
