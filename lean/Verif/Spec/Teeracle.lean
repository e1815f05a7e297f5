import Verif.Model.Runtime

/-!
# Specification vocabulary for teeracle
-/

namespace Verif

/-- No oracle is configured and no data is stored. -/
def FreshOracle (s : Chain) : Prop :=
  (∀ src, s.orc.whitelist src = []) ∧ (∀ p src, s.orc.rates p src = none) ∧ ∀ n src, s.orc.blobs n src = none

/-- `a` is registered with a measurement that is on the whitelist of the source. -/
def OracleFor (s : Chain) (src : Bytes) (a : AccountId) : Prop :=
  ∃ e, s.tx.sovereign a = some e ∧ e.mrEnclave ∈ s.orc.whitelist src

end Verif
