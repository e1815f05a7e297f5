import Verif.Model.Runtime

/-!
# Specification vocabulary for teerdays

Observations of one account, the time integral of its bond over a history, and sums over the event log.
-/

namespace Verif

/-- Value of the bond of an account (zero if there is none). -/
def bondValue (s : Chain) (a : AccountId) : Nat := (s.td.bonds a).elim 0 (·.value)

/-- Amount of the pending unlock of an account (zero if there is none). -/
def pendingAmount (s : Chain) (a : AccountId) : Nat := (s.td.pending a).elim 0 (·.2)

/-- The balance lock held by teerdays on an account. -/
def tdLock (s : Chain) (a : AccountId) : Nat := s.bal.lock .teerdays a

/-- The tokentime that an account has at the current time: what is stored plus bonded value × time since the
last update, capped at the maximum of the balance type. -/
def tokentimeNow (c : Cfg) (s : Chain) (a : AccountId) : Nat :=
  (s.td.bonds a).elim 0 fun b => min (b.tokentime + b.value * (s.now - b.lastUpdated)) c.balMax

/-- The account has never used teerdays: no bond, no pending unlock, no lock, no event. -/
def TdFresh (s : Chain) (a : AccountId) : Prop :=
  s.td.bonds a = none ∧ s.td.pending a = none ∧ tdLock s a = 0 ∧ s.td.events = []

/-- In this history the account never calls `bond` while it has a pending unlock. -/
def NoRebond (c : Cfg) (a : AccountId) : Chain → List Op → Prop
  | _, [] => True
  | s, op :: ops =>
    ((∃ v, op = .ext (.signed a) (.bond v)) → s.td.pending a = none) ∧ NoRebond c a (step c s op) ops

/-- An operation is one of the account's own calls that manage its bond. -/
def OwnTdCall (a : AccountId) (op : Op) : Prop :=
  (∃ v, op = .ext (.signed a) (.bond v)) ∨ (∃ v, op = .ext (.signed a) (.bondExtra v)) ∨
  (∃ v, op = .ext (.signed a) (.unbond v)) ∨ op = .ext (.signed a) .withdrawUnbonded

/-- The account unbonds in this operation. -/
def IsUnbond (a : AccountId) (op : Op) : Prop := ∃ v, op = .ext (.signed a) (.unbond v)

/-- Another pallet slashes the account in this operation. -/
def IsSlash (a : AccountId) (op : Op) : Prop := ∃ n, op = .slash a n

/-- Bonded value × time that elapses in this operation. -/
def bondTimeSlice (a : AccountId) (s : Chain) : Op → Nat
  | .newBlock dt => bondValue s a * dt
  | _ => 0

/-- Sum over a history of bonded value × elapsed time: the time integral of the bond of an account. -/
def bondIntegral (c : Cfg) (a : AccountId) : Chain → List Op → Nat
  | _, [] => 0
  | s, op :: ops => bondTimeSlice a s op + bondIntegral c a (step c s op) ops

/-- All amounts the account unbonded, according to the events. -/
def unbondedAmounts (a : AccountId) (l : List TdEvent) : List Nat :=
  l.filterMap fun
    | .unbonded x amount _ => if x = a then some amount else none
    | _ => none

/-- All amounts the account withdrew, according to the events. -/
def withdrawnAmounts (a : AccountId) (l : List TdEvent) : List Nat :=
  l.filterMap fun
    | .withdrawn x amount => if x = a then some amount else none
    | _ => none

end Verif

/-! ### Decidability (only needed to check the concrete examples) -/

namespace Verif

instance (s : Chain) (a : AccountId) : Decidable (TdFresh s a) :=
  inferInstanceAs (Decidable (_ ∧ _ ∧ _ ∧ _))

instance (a : AccountId) (op : Op) : Decidable (∃ v, op = .ext (.signed a) (.bond v)) :=
  decidable_of_iff ((match op with | .ext (.signed x) (.bond _) => decide (x = a) | _ => false) = true) <| by
    split
    · simp
    · rename_i h; simp; intro v hv; exact h _ _ hv

instance (a : AccountId) (op : Op) : Decidable (∃ v, op = .ext (.signed a) (.bondExtra v)) :=
  decidable_of_iff ((match op with | .ext (.signed x) (.bondExtra _) => decide (x = a) | _ => false) = true) <| by
    split
    · simp
    · rename_i h; simp; intro v hv; exact h _ _ hv

instance (a : AccountId) (op : Op) : Decidable (IsUnbond a op) :=
  decidable_of_iff ((match op with | .ext (.signed x) (.unbond _) => decide (x = a) | _ => false) = true) <| by
    unfold IsUnbond
    split
    · simp
    · rename_i h; simp; intro v hv; exact h _ _ hv

instance (a : AccountId) (op : Op) : Decidable (IsSlash a op) :=
  decidable_of_iff ((match op with | .slash x _ => decide (x = a) | _ => false) = true) <| by
    unfold IsSlash
    split
    · simp
    · rename_i h; simp; intro v hv; exact h _ _ hv

instance (a : AccountId) (op : Op) : Decidable (OwnTdCall a op) :=
  have : Decidable (∃ v, op = .ext (.signed a) (.unbond v)) := inferInstanceAs (Decidable (IsUnbond a op))
  inferInstanceAs (Decidable (_ ∨ _ ∨ _ ∨ _))

instance instDecidableNoRebond (c : Cfg) (a : AccountId) : ∀ s ops, Decidable (NoRebond c a s ops)
  | _, [] => .isTrue trivial
  | s, op :: ops =>
    have := instDecidableNoRebond c a (step c s op) ops
    inferInstanceAs (Decidable (_ ∧ _))

end Verif
