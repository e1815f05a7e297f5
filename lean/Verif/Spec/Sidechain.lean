import Verif.Spec.Bridge

/-!
# Specification vocabulary for the sidechain pallet
-/

namespace Verif

/-- The block a finalization event announces for a shard. -/
def ScEvent.blockOf (shard : ShardId) : ScEvent → Option Confirmation
  | .finalized sh n h _ => if sh = shard then some ⟨n, h⟩ else none

/-- All blocks ever finalized for a shard, the newest first, as announced by events. -/
def finalizedBlocks (s : Chain) (shard : ShardId) : List Confirmation :=
  s.sc.events.filterMap (ScEvent.blockOf shard)

/-- Nothing has been finalized yet. -/
def FreshSidechain (s : Chain) : Prop := (∀ shard, s.sc.latest shard = none) ∧ s.sc.events = []

/-- `a` is the first signer of the shard, or would be if it acted now. -/
def Primary (s : Chain) (shard : ShardId) (a : AccountId) : Prop :=
  statusOf s shard = [] ∨ (statusOf s shard).head?.map (·.signer) = some a

/-- The candidate follows the latest finalized block, which is the given ancestor. -/
def Follows (s : Chain) (shard : ShardId) (anc : Option Confirmation) (cand : Confirmation) : Prop :=
  ∀ k, s.sc.latest shard = some k → anc = some k ∧ k.number < cand.number

/-- The operation finalizes the block on the shard. -/
def Finalizes (c : Cfg) (s : Chain) (op : Op) (shard : ShardId) (cand : Confirmation) : Prop :=
  ∃ s', exec c s op = .ok s' ∧ finalizedBlocks s' shard = cand :: finalizedBlocks s shard

end Verif
