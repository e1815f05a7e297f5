import Verif.Conformance.Basic
import Verif.Model.Migrations

/-!
# The tests of teerex/src/migrations.rs on the model

The number of entries of a storage map is given by hand (storage maps are functions in the model). A map is checked
to be empty at the key that the test put into it.
-/

namespace Verif.Conf.Migrations

open Verif.Migrations

def enclave : EnclaveV0 where
  pubkey := Arr.zero 32
  mrEnclave := Arr.zero 32
  timestamp := 0
  url := []
  sgxMode := .production
def empty (version : Nat) : St where
  version := version
  v0Registry := fun _ => none
  v0Count := none
  v0Index := fun _ => none
  v0AllowDebug := none
  tcbInfo := fun _ => none
  tx := mock.tx
/-- The values inserted into the v0 storage. -/
def withV0 (s : St) : St := { s with
  v0Registry := fun i => if i = 0 then some enclave else none
  v0Index := fun a => if a = Arr.zero 32 then some 0 else none
  v0Count := some 1
  v0AllowDebug := some true }
/-- The value inserted into the v1 storage. -/
def withV1 (s : St) : St := { s with tcbInfo := fun f => if f = Arr.zero 6 then some (.inl ⟨0, 0⟩) else none }

/-- `migration_v0_to_v2_works`, teerex/src/migrations.rs L203-239. -/
example :
    let s0 := withV0 (empty 0)
    let s1 := v0ToV1 s0
    let s2 := v1ToV2 s1
    (postV1 s1 (preV1 s0)).isOk = true ∧
    (match preV2 s1 0 with | .ok b => (postV2 s2 0 b).isOk | .error _ => false) = true ∧
    s2.v0Count.getD 0 = 0 ∧ s2.tx.allowDebug = true ∧ (s2.v0Registry 0).isNone ∧ (s2.v0Index (Arr.zero 32)).isNone ∧
    s2.v0AllowDebug.getD false = false := by decide +kernel

/-- `migration_v1_to_v2_works`, teerex/src/migrations.rs L243-259. -/
example :
    let s1 := withV1 (empty 1)
    let s2 := v1ToV2 s1
    s1.version = 1 ∧ (match preV2 s1 1 with | .ok b => (postV2 s2 0 b).isOk | .error _ => false) = true ∧
    (s2.tcbInfo (Arr.zero 6)).isNone := by decide +kernel

/-- `migration_v1_to_v1_is_noop`, teerex/src/migrations.rs L262-287. -/
example :
    let s1 := withV0 (withV1 (empty 1))
    v0ToV1 s1 = s1 ∧ (postV1 (v0ToV1 s1) (preV1 s1)).isOk = true := ⟨rfl, by decide +kernel⟩

end Verif.Conf.Migrations
