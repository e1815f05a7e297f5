import Verif.Base

/-!
# Model of the currency the pallets work on

External code: pallet_balances 37 (`Currency`, `LockableCurrency`, `InspectLockableCurrency`) and
pallet_vesting 36 (`VestingSchedule`). Their source is not part of /repo; the definitions below are the
trusted description of the behaviour that the pallets of /repo rely on. Each comment names the place in
/repo where the function is called.

Simplifications: reserved/held balances and freezes of other pallets are not modelled; of the other users of
locks only one further lock id is kept (`LockId.other`), an account exists iff its free balance is not zero,
and an account with a lock cannot be reaped (a lock holds a consumer reference).
-/

namespace Verif

/-- Errors of the currency (external: `DispatchError` values of pallet_balances and pallet_vesting). -/
inductive BalErr where
  | fundsUnavailable
  | frozen
  | belowMinimum
  | overflow
  | invalidScheduleParams
  | atMaxVestingSchedules
  deriving DecidableEq

/-- `LockIdentifier`s: `TEERDAYS_ID` (teerdays/src/lib.rs L68), the one of pallet_vesting, any other. -/
inductive LockId where
  | teerdays
  | vesting
  | other
  deriving DecidableEq

/-- `VestingInfo` of pallet_vesting (external), filled from claims/src/lib.rs L489. -/
structure VestingInfo where
  locked : Nat
  perBlock : Nat
  start : Nat
  deriving DecidableEq

/-- `VestingInfo::locked_at` (external): what is still locked at block `n`. -/
def VestingInfo.lockedAt (v : VestingInfo) (n : Nat) : Nat := v.locked - (n - v.start) * max 1 v.perBlock

/-- Storage of pallet_balances and pallet_vesting (external). -/
structure Balances where
  free : AccountId → Nat
  lock : LockId → AccountId → Nat
  schedules : AccountId → List VestingInfo
  issuance : Nat

namespace Balances

/-- `frozen`: the maximum over all locks of an account (external). -/
def frozen (b : Balances) (a : AccountId) : Nat :=
  max (b.lock .teerdays a) (max (b.lock .vesting a) (b.lock .other a))

/-- `LockableCurrency::set_lock` (external; called in teerdays/src/lib.rs L185, L212, L325): a zero amount is
ignored, otherwise the lock of this id is replaced. -/
def setLock (b : Balances) (id : LockId) (a : AccountId) (amount : Nat) : Balances :=
  if amount = 0 then b else { b with lock := upd b.lock id (upd (b.lock id) a amount) }

/-- `LockableCurrency::remove_lock` (external; called in teerdays/src/lib.rs L323). -/
def removeLock (b : Balances) (id : LockId) (a : AccountId) : Balances :=
  { b with lock := upd b.lock id (upd (b.lock id) a 0) }

/-- Part of the free balance that may be withdrawn (external, `reducible_balance` with `Expendable`,
`Polite`): the maximum of the locks stays, and at least the existential deposit if there is a lock. -/
def reducible (ed : Nat) (b : Balances) (a : AccountId) : Nat :=
  if b.frozen a = 0 then b.free a else b.free a - max (b.frozen a) ed

/-- `Currency::transfer(from, to, value, AllowDeath)` (external; called in enclave-bridge/src/lib.rs L215,
L249). What is left below the existential deposit is burned (dust). -/
def transfer (ed balMax : Nat) (b : Balances) (src dst : AccountId) (value : Nat) : Except BalErr Balances :=
  if value = 0 ∨ src = dst then .ok b
  else if b.free src < value then .error .fundsUnavailable
  else if b.reducible ed src < value then .error .frozen
  else if balMax < b.free dst + value then .error .overflow
  else if b.free dst + value < ed then .error .belowMinimum
  else
    let left := b.free src - value
    let left' := if left < ed then 0 else left
    .ok { b with
      free := upd (upd b.free src left') dst (b.free dst + value)
      issuance := b.issuance - (left - left') }

/-- `Currency::deposit_creating(who, value)` (external; called in claims/src/lib.rs L483): does nothing if
the value is zero, if the account does not exist and the value is below the existential deposit, or on
overflow. -/
def depositCreating (ed balMax : Nat) (b : Balances) (who : AccountId) (value : Nat) : Balances :=
  if value = 0 ∨ (b.free who = 0 ∧ value < ed) ∨ balMax < b.free who + value ∨ balMax < b.issuance + value
  then b
  else { b with free := upd b.free who (b.free who + value), issuance := b.issuance + value }

/-- `VestingSchedule::vesting_balance` (external; called in claims/src/lib.rs L478): `some` iff there is a
schedule. -/
def vestingBalance (b : Balances) (block : Nat) (who : AccountId) : Option Nat :=
  if b.schedules who = [] then none
  else some (min (b.free who) ((b.schedules who).map (·.lockedAt block)).sum)

/-- Re-evaluation of the schedules of an account (external, `exec_action(Passive)`, `write_vesting`,
`write_lock`): finished schedules are dropped and the lock is set to what is still locked. -/
def updateVesting (b : Balances) (block : Nat) (who : AccountId) (l : List VestingInfo) : Balances :=
  let live := l.filter fun v => v.lockedAt block ≠ 0
  { b with
    schedules := upd b.schedules who live
    lock := upd b.lock .vesting (upd (b.lock .vesting) who (live.map (·.lockedAt block)).sum) }

/-- `VestingSchedule::add_vesting_schedule` (external; called in claims/src/lib.rs L489). -/
def addVesting (maxSchedules : Nat) (b : Balances) (block : Nat) (who : AccountId) (v : VestingInfo) :
    Except BalErr Balances :=
  if v.locked = 0 then .ok b
  else if v.perBlock = 0 then .error .invalidScheduleParams
  else if maxSchedules ≤ (b.schedules who).length then .error .atMaxVestingSchedules
  else .ok (b.updateVesting block who (b.schedules who ++ [v]))

end Balances

end Verif
