import Verif.Model.State

/-!
# Model of teerdays/src/lib.rs and primitives/teerdays/src/lib.rs
-/

namespace Verif

/-- `TeerDayBond::update`, primitives/teerdays/src/lib.rs L19-24. -/
def Bond.update (balMax : Nat) (b : Bond) (now : Nat) : Bond :=
  let elapsed := now - b.lastUpdated
  { value := b.value, lastUpdated := now, tokentime := satAdd balMax b.tokentime (satMul balMax b.value elapsed) }

namespace Teerdays

/-- Replace the bond of an account (`TeerDayBonds::insert` / `remove`), teerdays/src/lib.rs L156-159. -/
def setBond (s : Chain) (a : AccountId) (b : Option Bond) : Chain :=
  { s with td := { s.td with bonds := upd s.td.bonds a b } }

/-- Replace the pending unlock of an account, teerdays/src/lib.rs L163-166. -/
def setPending (s : Chain) (a : AccountId) (p : Option (Nat × Nat)) : Chain :=
  { s with td := { s.td with pending := upd s.td.pending a p } }

/-- `deposit_event`, teerdays/src/lib.rs L125. -/
def emit (s : Chain) (e : TdEvent) : Chain := { s with td := { s.td with events := e :: s.td.events } }

/-- `do_update_teerdays`, teerdays/src/lib.rs L301-310. -/
def doUpdate (c : Cfg) (s : Chain) (a : AccountId) : Except Err (Bond × Chain) := do
  let bond ← okOr (s.td.bonds a) .noBond
  let bond := bond.update c.balMax s.now
  let s := setBond s a (some bond)
  let s := emit s (.tokenTimeUpdated a bond)
  .ok (bond, s)

/-- `try_withdraw_unbonded`, teerdays/src/lib.rs L312-334. -/
def tryWithdraw (s : Chain) (a : AccountId) : Except Err (Nat × Chain) := do
  let (due, amount) ← okOr (s.td.pending a) .notUnlocking
  ensure (!decide (s.now < due)) .pendingUnlock
  let locked := s.bal.lock .teerdays a
  let amount := min amount locked
  let bal :=
    if amount = locked then s.bal.removeLock .teerdays a
    else s.bal.setLock .teerdays a (locked - amount)
  .ok (amount, setPending { s with bal := bal } a none)

/-- `bond`, teerdays/src/lib.rs L174-193. -/
def bond (c : Cfg) (s : Chain) (o : Origin) (value : Nat) : Except Err Chain := do
  let signer ← ensureSigned o
  ensure (s.td.bonds signer).isNone .alreadyBonded
  ensure (decide (value ≥ c.ed)) .insufficientBond
  let value := min value (s.bal.free signer)
  let s := emit s (.bonded signer value)
  let s := { s with bal := s.bal.setLock .teerdays signer value }
  .ok (setBond s signer (some { value := value, lastUpdated := s.now, tokentime := 0 }))

/-- `bond_extra`, teerdays/src/lib.rs L199-220. -/
def bondExtra (c : Cfg) (s : Chain) (o : Origin) (value : Nat) : Except Err Chain := do
  let signer ← ensureSigned o
  ensure (s.td.pending signer).isNone .pendingUnlock
  ensure (decide (value ≥ c.ed)) .insufficientBond
  let (bond, s) ← doUpdate c s signer
  let value := min value (s.bal.free signer - bond.value)
  let newValue := satAdd c.balMax bond.value value
  let s := emit s (.bonded signer value)
  let s := { s with bal := s.bal.setLock .teerdays signer newValue }
  .ok (setBond s signer
    (some { value := newValue, lastUpdated := bond.lastUpdated, tokentime := bond.tokentime }))

/-- `checked_div(..).unwrap_or_default()`, teerdays/src/lib.rs L244-247: zero if the divisor is zero. -/
def divOrZero (a b : Nat) : Nat := if b = 0 then 0 else a / b

/-- `unbond`, teerdays/src/lib.rs L229-269. -/
def unbond (c : Cfg) (s : Chain) (o : Origin) (value : Nat) : Except Err Chain := do
  let signer ← ensureSigned o
  ensure (s.td.pending signer).isNone .pendingUnlock
  ensure (decide (value ≥ c.ed)) .insufficientUnbond
  let (bond, s) ← doUpdate c s signer
  let now := bond.lastUpdated
  let newAmount := bond.value - value
  let unbonded := bond.value - newAmount
  let newTokentime := satMul c.balMax (divOrZero bond.tokentime bond.value) newAmount
  let newBond : Bond := { value := newAmount, lastUpdated := now, tokentime := newTokentime }
  let s := setBond s signer (if newBond.value < c.ed then none else some newBond)
  let due ← plainAdd c c.momentMax now c.unlockPeriod
  let s := setPending s signer (some (due, unbonded))
  .ok (emit s (.unbonded signer unbonded (bond.tokentime - newTokentime)))

/-- `update_other`, teerdays/src/lib.rs L276-280. -/
def updateOther (c : Cfg) (s : Chain) (o : Origin) (who : AccountId) : Except Err Chain := do
  let _ ← ensureSigned o
  let (_, s) ← doUpdate c s who
  .ok s

/-- `withdraw_unbonded`, teerdays/src/lib.rs L285-293. -/
def withdrawUnbonded (s : Chain) (o : Origin) : Except Err Chain := do
  let signer ← ensureSigned o
  let (unlocked, s) ← tryWithdraw s signer
  .ok (emit s (.withdrawn signer unlocked))

end Teerdays

end Verif
