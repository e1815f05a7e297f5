import Verif.Spec.Money
import Verif.Spec.Claims

/-!
# Specification vocabulary: what the accepted operations of a history brought to an account and took from it

An accepted operation is given with the state it started from, as in `accepted`.
-/

namespace Verif

/-- The amount announced by the newest payment event after an operation. -/
def announced (c : Cfg) (p : Chain × Op) : Nat :=
  match (step c p.1 p.2).cl.events with
  | e :: _ => e.amount
  | [] => 0

/-- The amount that an accepted operation brings to an account. -/
def credited (c : Cfg) (a : AccountId) (p : Chain × Op) : Nat :=
  match p.2 with
  | .ext _ (.shieldFunds shard _ v) => if shard = a then v else 0
  | .ext _ (.balTransfer dst v) => if dst = a then v else 0
  | .ext _ (.unshieldFunds _ ben v h) => if ben = a ∧ p.1.br.executed h = none then v else 0
  | .ext _ (.claims (.claim dest _)) => if dest = a then announced c p else 0
  | .ext _ (.claims (.claimAttest dest _ _)) => if dest = a then announced c p else 0
  | .ext (.signed b) (.claims (.attest _)) => if b = a then announced c p else 0
  | .mint b v => if b = a then v else 0
  | _ => 0

/-- The amount that an accepted operation takes from an account. -/
def debited (a : AccountId) (p : Chain × Op) : Nat :=
  match p.2 with
  | .ext (.signed b) (.shieldFunds _ _ v) => if b = a then v else 0
  | .ext (.signed b) (.balTransfer _ v) => if b = a then v else 0
  | .ext _ (.unshieldFunds shard _ v h) => if shard = a ∧ p.1.br.executed h = none then v else 0
  | .slash b n => if b = a then min n (p.1.bal.free a) else 0
  | _ => 0

/-- Everything brought to an account in a history. -/
def totalCredited (c : Cfg) (a : AccountId) (acc : List (Chain × Op)) : Nat := (acc.map (credited c a)).sum

/-- Everything taken from an account in a history. -/
def totalDebited (a : AccountId) (acc : List (Chain × Op)) : Nat := (acc.map (debited a)).sum

/-- The accepted operations that bring something to an account or take something from it. -/
def movements (c : Cfg) (a : AccountId) (acc : List (Chain × Op)) : List (Chain × Op) :=
  acc.filter fun p => credited c a p ≠ 0 ∨ debited a p ≠ 0

/-- Amount shielded into a shard, according to an event. -/
def BrEvent.shielded (shard : ShardId) : BrEvent → Nat
  | .shieldFunds x _ v => if x = shard then v else 0
  | _ => 0

/-- Amount unshielded from a shard, according to an event. -/
def BrEvent.unshielded (shard : ShardId) : BrEvent → Nat
  | .unshieldedFunds x _ v => if x = shard then v else 0
  | _ => 0

/-- Everything ever shielded into a shard, as announced by events. -/
def shieldedInto (s : Chain) (shard : ShardId) : Nat := (s.br.events.map (BrEvent.shielded shard)).sum

/-- Everything ever unshielded from a shard, as announced by events. -/
def unshieldedFrom (s : Chain) (shard : ShardId) : Nat := (s.br.events.map (BrEvent.unshielded shard)).sum

/-- The operation could bring money to the account other than by shielding. -/
def Op.paysInto (a : AccountId) : Op → Prop
  | .ext _ (.balTransfer dst _) => dst = a
  | .ext _ (.unshieldFunds _ ben _ _) => ben = a
  | .ext _ (.claims (.claim dest _)) => dest = a
  | .ext _ (.claims (.claimAttest dest _ _)) => dest = a
  | .ext o (.claims (.attest _)) => o = .signed a
  | .mint b _ => b = a
  | _ => False

end Verif
