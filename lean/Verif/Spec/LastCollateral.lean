import Verif.Spec.Teerex
import Verif.Spec.Quote

/-!
# Specification: the collateral that was registered last
-/

namespace Verif

/-- In the list of accepted operations, `op` is the last one of a kind, and it was made in state `s`. -/
def LastOf (kind : Op → Prop) (acc : List (Chain × Op)) (s : Chain) (op : Op) : Prop :=
  ∃ before after, acc = before ++ (s, op) :: after ∧ kind op ∧ ∀ p ∈ after, ¬ kind p.2

/-- The operation registers an identity of the quoting enclave. -/
def RegistersIdentity (op : Op) : Prop := ∃ o data sig chain, op = .ext o (.registerQuotingEnclave data sig chain)

/-- The operation registers a TCB info for the platforms with this FMSPC. -/
def RegistersTcbInfo (c : Cfg) (f : Fmspc) (op : Op) : Prop :=
  ∃ o data sig chain doc, op = .ext o (.registerTcbInfo data sig chain) ∧ c.ext.parseTcbInfo data = some doc ∧ doc.fmspc = f

end Verif
