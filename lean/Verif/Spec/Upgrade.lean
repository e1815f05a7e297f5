import Verif.Model.Migrations
import Verif.Model.Runtime

/-!
# Specification: histories with storage upgrades

A chain whose storage may come from an older version of the pallet teerex, and histories in which the storage upgrades
(teerex/src/migrations.rs L75-103, L153-177) run between other operations, as they do at the beginning of the first block
after an upgrade of the runtime.
-/

namespace Verif

/-- A chain together with what older versions of the pallet teerex left in its storage. The component `tx` of `rest` is not
used, nor is the component `tcb` of `old.tx`: the storage of teerex is in `old`. -/
structure VersionedChain where
  old : Migrations.St
  rest : Chain

/-- The chain as the pallets see it. A TCB info of version 1 reads as none (C143). -/
def VersionedChain.seen (x : VersionedChain) : Chain :=
  { x.rest with tx := { x.old.tx with tcb := fun f => (x.old.tcbInfo f).bind Sum.getRight? } }

/-- What happens to a versioned chain: an operation, the upgrade to version 1, or the upgrade to version 2. -/
inductive VersionedOp where
  | op (o : Op)
  | toV1
  | toV2

/-- One operation on a versioned chain. Calls do not touch the storage version and the items of version 0; a TCB info that they
write replaces the one in storage. -/
def VersionedChain.step (c : Cfg) (x : VersionedChain) : VersionedOp → VersionedChain
  | .op o =>
    let s := Verif.step c x.seen o
    { rest := s
      old := { x.old with
        tx := s.tx
        tcbInfo := fun f => if s.tx.tcb f = x.seen.tx.tcb f then x.old.tcbInfo f else (s.tx.tcb f).map .inr } }
  | .toV1 => { x with old := Migrations.v0ToV1 x.old }
  | .toV2 => { x with old := Migrations.v1ToV2 x.old }

/-- A history of a versioned chain. -/
def VersionedChain.run (c : Cfg) (x : VersionedChain) (l : List VersionedOp) : VersionedChain := l.foldl (·.step c) x

/-- The history without the upgrades. -/
def withoutUpgrades : List VersionedOp → List Op
  | [] => []
  | .op o :: l => o :: withoutUpgrades l
  | .toV1 :: l => withoutUpgrades l
  | .toV2 :: l => withoutUpgrades l

end Verif
