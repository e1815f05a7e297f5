import Verif.Spec.LastWrite
import Verif.Spec.Bridge

/-!
# Specification: the order in which enclaves joined a shard
-/

namespace Verif

/-- The accepted operation is activity of account `a` in the shard. -/
def ActsIn (shard : ShardId) (a : AccountId) (p : Chain × Op) : Prop :=
  ∃ k e, p.2 = .ext (.signed a) k ∧ p.1.tx.sovereign a = some e ∧ k.activeIn e = some shard

/-- The operation purges account `a` from the shard. -/
def Purges (shard : ShardId) (a : AccountId) (op : Op) : Prop := op = .ext .root (.purgeEnclave shard a)

/-- Account `a` joined the shard with the accepted operation number `n`: it was active then, it was not purged later, and it was
purged after any earlier activity. -/
def Joined (shard : ShardId) (acc : List (Chain × Op)) (a : AccountId) (n : Nat) : Prop :=
  (∃ p, acc[n]? = some p ∧ ActsIn shard a p) ∧
  (∀ m q, n < m → acc[m]? = some q → ¬ Purges shard a q.2) ∧
  (∀ m q, m < n → acc[m]? = some q → ActsIn shard a q → ∃ j r, m < j ∧ j < n ∧ acc[j]? = some r ∧ Purges shard a r.2)

/-- The accounts in the status of a shard, in the order of the list. -/
def signersOf (s : Chain) (shard : ShardId) : List AccountId := (statusOf s shard).map (·.signer)

/-- What an accepted operation says about the latest finalised block of a shard: the confirmation of a block counts if it is made by
the first account in the status of the shard, or by any account if there is none. -/
def writesLatest (shard : ShardId) : Chain × Op → Option (Option Confirmation)
  | (s, .ext (.signed a) (.confirmImportedSidechainBlock x _ cand)) =>
    if x = shard ∧ (signersOf s shard).head?.getD a = a then some (some cand) else none
  | _ => none

end Verif
