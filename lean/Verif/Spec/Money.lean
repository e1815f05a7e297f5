import Verif.Model.Runtime

/-!
# Specification vocabulary for money
-/

namespace Verif

/-- Sum of the free balances of the listed accounts. -/
def sumFree (b : Balances) (l : List AccountId) : Nat := (l.map b.free).sum

/-- The balances of any accounts are covered by the total issuance. -/
def Covered (s : Chain) : Prop := ∀ l : List AccountId, l.Nodup → sumFree s.bal l ≤ s.bal.issuance

/-- There are finitely many accounts, and the total issuance is the sum of their balances. -/
def Balanced (s : Chain) : Prop :=
  (∃ l : List AccountId, ∀ a, s.bal.free a ≠ 0 → a ∈ l) ∧
  ∀ l : List AccountId, l.Nodup → (∀ a, s.bal.free a ≠ 0 → a ∈ l) → sumFree s.bal l = s.bal.issuance

/-- The operation is an extrinsic. -/
def Op.isExt : Op → Bool
  | .ext _ _ => true
  | _ => false

end Verif
