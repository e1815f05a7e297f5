import Verif.Spec.Weights
import Verif.Spec.Bridge

/-!
# Specification: what the acceptance of a call is decided by

A call has to read the storage that decides whether it is accepted. Counted are storage entries as in `Spec/Weights.lean`, the
clock (`Timestamp::Now`) and the entries of pallet assets. Not counted are the number of the block, which every block has in
memory, and what the message router of the runtime looks at.
-/

namespace Verif

/-- Something that a call reads. -/
inductive Reading where
  | entry (x : Cell)
  | clock
  | asset (i : AssetId)
  deriving DecidableEq

/-- The reading gives the same in both states. -/
def Reading.same (s t : Chain) : Reading → Prop
  | .entry x => x.same s t
  | .clock => s.now = t.now
  | .asset i => s.assets i = t.assets i

/-- A state that a chain with a new bridge can reach. -/
def Reached (c : Cfg) (s : Chain) : Prop := ∃ s0 ops, FreshBridge s0 ∧ s = run c s0 ops

/-- These readings decide whether the call is accepted: in all states, reached at the same block number, in which they give the
same, the answer is the same. -/
def Decide (c : Cfg) (s : Chain) (o : Origin) (k : Call) (l : List Reading) : Prop :=
  ∀ t, Reached c t → t.block = s.block → t.xt.sent = s.xt.sent → (∀ x ∈ l, x.same s t) →
    ((∃ s', exec c s (.ext o k) = .ok s') ↔ ∃ t', exec c t (.ext o k) = .ok t')

end Verif
