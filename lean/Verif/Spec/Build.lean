import Verif.Model.Runtime

/-!
# Specification: how the chain was compiled

Rust programs can be compiled with overflow checks, with which `+` panics when the sum does not fit, or without, with
which it wraps around.
-/

namespace Verif

/-- The same runtime, compiled with (`true`) or without (`false`) overflow checks. -/
def Cfg.checks (c : Cfg) (b : Bool) : Cfg := { c with overflowChecks := b }

/-- The sum that the operation computes without a check of its own fits: the time at which unbonded tokens can be withdrawn,
the number of confirmations of an unshielding, and the total of the claims. -/
def SumFits (c : Cfg) (s : Chain) : Op → Prop
  | .ext _ (.unbond _) => s.now + c.unlockPeriod ≤ c.momentMax
  | .ext _ (.unshieldFunds _ _ _ h) => ∀ n, s.br.executed h = some n → n + 1 ≤ 2 ^ 64 - 1
  | .ext _ (.claims (.mintClaim _ v _ _)) => s.cl.total + v ≤ c.balMax
  | _ => True

/-- The time that passes in a history. -/
def elapsedOf : List Op → Nat
  | [] => 0
  | .newBlock dt :: ops => dt + elapsedOf ops
  | _ :: ops => elapsedOf ops

/-- What is minted in claims in a history, together. -/
def mintsOf : List Op → Nat
  | [] => 0
  | .ext _ (.claims (.mintClaim _ v _ _)) :: ops => v + mintsOf ops
  | _ :: ops => mintsOf ops

end Verif
