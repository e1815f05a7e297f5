import Verif.Conformance.Basic

/-!
# teerdays/src/tests.rs on the model

Not transliterated: the reference counter `consumers` of frame_system, which the model does not have.
-/

namespace Verif.Conf.Teerdays

def a : Origin := .signed alice
def amount : Nat := 10000000000000
def period : Nat := 86400000

def bond (v : Nat) : Op := .ext a (.bond v)
def bondExtra (v : Nat) : Op := .ext a (.bondExtra v)
def unbond (v : Nat) : Op := .ext a (.unbond v)
def withdraw : Op := .ext a .withdrawUnbonded

def event (e : TdEvent) : Step := check fun s => s.td.events.contains e
def entry (b : Option Bond) : Step := check fun s => s.td.bonds alice = b
def frozen (n : Nat) : Step := check fun s => s.bal.frozen alice = n

/-- `bond_works`, teerdays/src/tests.rs L25-49. -/
example : play mock [at_ 1 42, setFree alice 15000000000000, ok mockCfg (bond amount), event (.bonded alice amount),
    entry (some ⟨amount, 42, 0⟩), frozen amount] = true := by decide +kernel

/-- `bond_saturates_at_free`, teerdays/src/tests.rs L52-78. -/
example : play mock [at_ 1 42, setFree alice 5000000000000, ok mockCfg (bond amount),
    event (.bonded alice 5000000000000), entry (some ⟨5000000000000, 42, 0⟩), frozen 5000000000000] = true := by
  decide +kernel

/-- `bond_extra_works`, teerdays/src/tests.rs L81-113. -/
example : play mock [at_ 1 42, ok mockCfg (bond amount), at_ 2 10042, ok mockCfg (bondExtra (amount / 2)),
    event (.bonded alice (amount / 2)), entry (some ⟨amount + amount / 2, 10042, amount * 10000⟩),
    frozen (amount + amount / 2)] = true := by decide +kernel

/-- `bond_extra_saturates_at_free_margin`, teerdays/src/tests.rs L116-160. -/
example : play mock [at_ 1 42, setFree alice 11000000000000, ok mockCfg (bond amount), entry (some ⟨amount, 42, 0⟩),
    frozen amount, at_ 2 10042, ok mockCfg (bondExtra (amount / 2)), event (.bonded alice 1000000000000),
    entry (some ⟨amount + 1000000000000, 10042, amount * 10000⟩), frozen (amount + 1000000000000)] = true := by
  decide +kernel

/-- `withdrawing_unbonded_after_unlock_period_works`, teerdays/src/tests.rs L163-239. -/
example : play mock [at_ 1 42, frozen 0, ok mockCfg (bond amount), at_ 2 (42 + period), ok mockCfg (unbond (amount / 5)),
    event (.unbonded alice (amount / 5) (amount * period / 5)),
    entry (some ⟨amount - amount / 5, 42 + period, amount * period * (amount - amount / 5) / amount⟩),
    noop mockCfg (unbond (amount / 5)) .pendingUnlock, noop mockCfg withdraw .pendingUnlock,
    at_ 3 (42 + 2 * period), ok mockCfg withdraw, frozen (amount - amount / 5),
    at_ 4 (42 + 3 * period), ok mockCfg (unbond amount), entry none,
    at_ 5 (42 + 4 * period), ok mockCfg withdraw, frozen 0] = true := by decide +kernel

/-- `unbonding_saturates_at_bonded`, teerdays/src/tests.rs L242-268. -/
example : play mock [at_ 1 42, frozen 0, ok mockCfg (bond amount), ok mockCfg (unbond (amount * 2)),
    event (.unbonded alice amount 0), entry none, check fun s => (s.td.pending alice).map (·.2) = some amount] =
    true := by decide +kernel

/-- `update_other_works`, teerdays/src/tests.rs L271-296. -/
example : play mock [at_ 1 42, ok mockCfg (bond amount), at_ 2 (42 + period), ok mockCfg (.ext a (.updateOther alice)),
    entry (some ⟨amount, 42 + period, amount * period⟩)] = true := by decide +kernel

end Verif.Conf.Teerdays
