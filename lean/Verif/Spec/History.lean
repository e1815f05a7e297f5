import Verif.Spec.Effect
import Verif.Spec.Refusal

/-!
# Specification: histories

A description of the whole chain as a transition system, put together from the tables: conditions and their errors
(`Spec/Refusal.lean`, `Spec/Accept.lean`), effects (`Spec/Effect.lean`), places (`Spec/Locality.lean`) and events
(`Spec/News.lean`), and the actions of the outside world. It does not mention the functions of the pallets.
-/

namespace Verif

/-- What became of an operation. -/
inductive Outcome where
  | done
  | refused (e : Err)
  deriving DecidableEq

/-- The clock and all places outside the list stay as they are. -/
def OnlyAt (s s' : Chain) (l : List Place) : Prop :=
  s'.now = s.now ∧ s'.block = s.block ∧ ∀ x, x ∉ l → x.same s s'

/-- No pallet has a new event. -/
def NoNews (s s' : Chain) : Prop := News.Added {} s s'

/-- The call was accepted: it had the described effect, no other effect, and left the described events. -/
def Performed (c : Cfg) (s s' : Chain) (o : Origin) (k : Call) : Prop :=
  Accepts c s o k ∧ Effect c s s' o k ∧ OnlyAt s s' (k.changes c s o) ∧ ∃ n : News, Announces c s s' o n k ∧ n.Added s s'

/-- The vesting schedules of an account become those of the list that still lock something, and the lock for them what
they lock together. -/
def ScheduledAs (s s' : Chain) (a : AccountId) (l : List VestingInfo) : Prop :=
  s'.bal.schedules a = (l.filter fun v => v.lockedAt s.block ≠ 0) ∧
  s'.bal.lock .vesting a = (l.map fun v => v.lockedAt s.block).sum ∧
  s'.bal.free a = s.bal.free a ∧ ∀ id, id ≠ .vesting → s'.bal.lock id a = s.bal.lock id a

/-- What the outside world needs: only a new vesting schedule can be refused. -/
def outsideConditions (c : Cfg) (s : Chain) : Op → List (Err × Prop)
  | .addVesting a v =>
    [(.bal .invalidScheduleParams, v.locked = 0 ∨ v.perBlock ≠ 0),
     (.bal .atMaxVestingSchedules, v.locked = 0 ∨ (s.bal.schedules a).length < c.maxSchedules)]
  | _ => []

/-- What the outside world does. -/
def OutsideEffect (c : Cfg) (s s' : Chain) : Op → Prop
  | .ext _ _ => False
  | .newBlock dt => s'.block = s.block + 1 ∧ s'.now = s.now + dt ∧ ∀ x : Place, x.same s s'
  | .mint a v => OnlyAt s s' [.money a, .issuance] ∧ s'.bal.free a = s.bal.free a + arriving c s a v ∧
      s'.bal.issuance = s.bal.issuance + arriving c s a v ∧ ∀ id, s'.bal.lock id a = s.bal.lock id a
  | .slash a v => OnlyAt s s' [.money a, .issuance] ∧ s'.bal.free a = s.bal.free a - v ∧
      s'.bal.issuance = s.bal.issuance - min v (s.bal.free a) ∧ ∀ id, s'.bal.lock id a = s.bal.lock id a
  | .setOtherLock a v => OnlyAt s s' [.money a] ∧ s'.bal.free a = s.bal.free a ∧ s'.bal.lock .other a = v ∧
      ∀ id, id ≠ .other → s'.bal.lock id a = s.bal.lock id a
  | .vest a => OnlyAt s s' [.money a, .schedules a] ∧ ScheduledAs s s' a (s.bal.schedules a)
  | .addVesting a v =>
      if v.locked = 0 then OnlyAt s s' []
      else OnlyAt s s' [.money a, .schedules a] ∧ ScheduledAs s s' a (s.bal.schedules a ++ [v])
  | .setAsset id m => OnlyAt s s' [.asset id] ∧ s'.assets id = some m
  | .destroyAsset id => OnlyAt s s' [.asset id] ∧ s'.assets id = none

/-- One operation with its outcome. A refused operation has no effect at all. -/
def Described (c : Cfg) (s s' : Chain) : Op → Outcome → Prop
  | .ext o k, .done => Performed c s s' o k
  | .ext o k, .refused e => FirstFailing (conditions c s o k) e ∧ s' = s
  | op, .done => AllHold (outsideConditions c s op) ∧ OutsideEffect c s s' op ∧ NoNews s s'
  | op, .refused e => FirstFailing (outsideConditions c s op) e ∧ s' = s

/-- Operations one after the other, each as described. -/
inductive History (c : Cfg) : Chain → List Op → List Outcome → Chain → Prop where
  | none (s : Chain) : History c s [] [] s
  | next {s s1 s' : Chain} {op : Op} {ops : List Op} {r : Outcome} {rs : List Outcome} :
      Described c s s1 op r → History c s1 ops rs s' → History c s (op :: ops) (r :: rs) s'

end Verif
