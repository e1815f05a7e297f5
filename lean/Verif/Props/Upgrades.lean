import Verif.Spec.Upgrade
import Verif.Props.Primitives
import Verif.Props.Renewal

/-!
# Properties of histories with storage upgrades: C170
-/

namespace Verif

open Migrations Demo

/-! ### C170 Upgrades in the middle of a history -/

/-- After an operation the pallets see what the operation made. -/
theorem seen_op (c : Cfg) (x : VersionedChain) (o : Op) : (x.step c (.op o)).seen = step c x.seen o := by
  have h : (fun f => ((x.step c (.op o)).old.tcbInfo f).bind Sum.getRight?) = (step c x.seen o).tx.tcb := by
    funext f
    simp only [VersionedChain.step]
    split
    · rename_i he
      rw [he]
      rfl
    · cases (step c x.seen o).tx.tcb f <;> rfl
  show ({ (step c x.seen o) with tx := { (step c x.seen o).tx with tcb := _ } } : Chain) = _
  rw [h]

/-- Upgrades on a chain at version 2 or later, within any history. -/
theorem seen_done (c : Cfg) (l : List VersionedOp) : ∀ x : VersionedChain, 2 ≤ x.old.version →
    (x.run c l).seen = run c x.seen (withoutUpgrades l) ∧ (x.run c l).old.version = x.old.version := by
  induction l with
  | nil => exact fun x _ => ⟨rfl, rfl⟩
  | cons v l ih =>
    intro x h
    cases v with
    | op o =>
      obtain ⟨h1, h2⟩ := ih (x.step c (.op o)) h
      refine ⟨?_, h2⟩
      show ((x.step c (.op o)).run c l).seen = _
      rw [h1, seen_op]
      rfl
    | toV1 =>
      have h1 : x.step c .toV1 = x := by
        simp only [VersionedChain.step, v0ToV1]; rw [if_pos (by omega)]
      show ((x.step c .toV1).run c l).seen = _ ∧ ((x.step c .toV1).run c l).old.version = _
      rw [h1]; exact ih x h
    | toV2 =>
      have h1 : x.step c .toV2 = x := by
        have e : v1ToV2 x.old = x.old := by unfold v1ToV2 inCodeVersion; rw [if_pos (by omega)]
        simp only [VersionedChain.step, e]
      show ((x.step c .toV2).run c l).seen = _ ∧ ((x.step c .toV2).run c l).old.version = _
      rw [h1]; exact ih x h

/-- C170: on a chain at version 2 or later, upgrades that run again, at any points of any history, make no difference to what
the pallets do: the history goes as if they were not there. -/
theorem C170_again (c : Cfg) (x : VersionedChain) (l : List VersionedOp) (h : 2 ≤ x.old.version) :
    (x.run c l).seen = run c x.seen (withoutUpgrades l) := (seen_done c l x h).1

/-- C170: a chain at version 0 that is upgraded goes on, whatever happens then and however often upgrades run again, as a chain
without enclaves and TCB infos, with the same debug flag, the other settings, bonds, shards, claims and everything else
being as they were. -/
theorem C170_from_0 (c : Cfg) (x : VersionedChain) (l : List VersionedOp) (h : x.old.version = 0)
    (hn : ∀ a, x.old.tx.sovereign a = none) (hp : ∀ a, x.old.tx.proxied a = none) :
    ∃ s, NoEnclaves s ∧ (∀ f, s.tx.tcb f = none) ∧ s.tx.allowDebug = x.old.v0AllowDebug.getD false ∧
      s = { x.rest with tx := { x.old.tx with tcb := s.tx.tcb, allowDebug := s.tx.allowDebug } } ∧
      (x.run c (.toV1 :: .toV2 :: l)).seen = run c s (withoutUpgrades l) := by
  have h1 := C65_from_0 x.old h
  refine ⟨(x.run c [.toV1, .toV2]).seen, ?_⟩
  have h2 : x.run c [.toV1, .toV2] = { x with old := v1ToV2 (v0ToV1 x.old) } := rfl
  have h3 : x.run c (.toV1 :: .toV2 :: l) = ({ x with old := v1ToV2 (v0ToV1 x.old) } : VersionedChain).run c l := rfl
  rw [h2, h3, h1]
  exact ⟨⟨hn, hp⟩, fun _ => rfl, rfl, rfl, C170_again c _ l (Nat.le_refl 2)⟩

/-- C170: so what holds of the registries of a new chain holds of an upgraded one. Every enclave that is registered for an account
was registered after the upgrade, carries the account in its report data, and is no debug enclave if the old flag did not allow
them and root did not do so since. -/
theorem C170_registry (c : Cfg) (x : VersionedChain) (l : List VersionedOp) (h : x.old.version = 0)
    (hn : ∀ a, x.old.tx.sovereign a = none) (hp : ∀ a, x.old.tx.proxied a = none) (a : AccountId) (e : SgxEnclave)
    (he : (x.run c (.toV1 :: .toV2 :: l)).seen.tx.sovereign a = some e) :
    e.reportData.val.take 32 = a.val ∧
    (∃ proof, .ext (.signed a) (.registerSgxEnclave proof e.url e.method) ∈ withoutUpgrades l) ∧
    (x.old.v0AllowDebug.getD false = false →
      (∀ op ∈ withoutUpgrades l, ∀ sk, op ≠ .ext .root (.setSecurityFlags sk true)) → e.buildMode = .production) := by
  obtain ⟨s, h1, _, h3, _, h5⟩ := C170_from_0 c x l h hn hp
  rw [h5] at he
  obtain ⟨i1, _, s', proof, i2, _⟩ := C12_sovereign_own_key c s _ h1 a e he
  exact ⟨i1, ⟨proof, accepted_mem (p := (s', _)) i2⟩, fun hd hops => (C19_no_debug c s _ h1 (h3.trans hd) hops).1 a e he⟩

/-- C170: a chain at version 1 that is upgraded goes on with all its enclaves, flags and the identity of the quoting enclave,
but without TCB infos. -/
theorem C170_from_1 (c : Cfg) (x : VersionedChain) (l : List VersionedOp) (h : x.old.version = 1) :
    (x.run c (.toV1 :: .toV2 :: l)).seen =
      run c { x.rest with tx := { x.old.tx with tcb := fun _ => none } } (withoutUpgrades l) := by
  have h3 : x.run c (.toV1 :: .toV2 :: l) = ({ x with old := v1ToV2 (v0ToV1 x.old) } : VersionedChain).run c l := rfl
  rw [h3, C65_from_1 x.old h]
  exact C170_again c _ l (Nat.le_refl 2)

/-- A chain at version 0 with one enclave of the old format and the debug flag set, on which somebody registers an enclave of the
new format in the block after the upgrade; the upgrades stay in the runtime for one more block. -/
def upgraded : List VersionedOp :=
  [.toV1, .toV2, .op (enroll alice 7), .op (.newBlock 6000), .toV1, .toV2, .op (enroll carol 7)]

example :
    let x : VersionedChain := ⟨oldChain, start⟩
    x.old.version = 0 ∧ (∀ a, x.old.tx.sovereign a = none) ∧ (∀ a, x.old.tx.proxied a = none) ∧
    x.seen.tx.allowDebug = false ∧ (x.run okCfg upgraded).seen.tx.allowDebug = true ∧
    ((x.run okCfg upgraded).seen.tx.sovereign alice).isSome ∧ ((x.run okCfg upgraded).seen.tx.sovereign carol).isSome ∧
    (x.run okCfg upgraded).old.v0Count = none ∧ (x.run okCfg upgraded).old.version = 2 := by
  refine ⟨rfl, fun _ => rfl, fun _ => rfl, rfl, ?_, ?_, ?_, ?_, ?_⟩ <;> decide +kernel

example :
    let x : VersionedChain := ⟨{ oldChain with v0AllowDebug := none }, start⟩
    x.old.version = 0 ∧ x.old.v0AllowDebug.getD false = false ∧
    (∀ op ∈ withoutUpgrades (upgraded.drop 2), ∀ sk, op ≠ .ext .root (.setSecurityFlags sk true)) ∧
    ((x.run okCfg upgraded).seen.tx.sovereign alice).map (·.buildMode) = some .production := by
  refine ⟨rfl, rfl, ?_, by decide +kernel⟩
  simp [upgraded, withoutUpgrades, enroll]

example :
    let x : VersionedChain := ⟨{ oldChain with version := 1, tx := (run okCfg start [enroll alice 7]).tx }, start⟩
    x.old.version = 1 ∧ x.seen.tx.tcb (Arr.fill 6 1) = none ∧ ((x.run okCfg upgraded).seen.tx.sovereign alice).isSome := by
  refine ⟨rfl, rfl, ?_⟩ <;> decide +kernel

end Verif
