import Verif.Model.Migrations
import Verif.Model.CommonPrimitives
import Verif.Spec.Demo

/-!
# Properties of migrations and common primitives: C65, C66, C84
-/

namespace Verif

open Migrations

/-! ### C65 Storage migrations run once and preserve the debug flag -/

/-- A chain at version 0 with an enclave and debug mode on. -/
def oldChain : Migrations.St where
  version := 0
  v0Registry := fun n => if n = 1 then some ⟨Demo.alice, Arr.zero 32, 5, [], .production⟩ else none
  v0Count := some 1
  v0Index := fun a => if a = Demo.alice then some 1 else none
  v0AllowDebug := some true
  tcbInfo := fun _ => some (.inl ⟨1, 2⟩)
  tx := Demo.start.tx

/-- C65: from version 0 both migrations together purge the old items and all TCB infos, carry over the debug flag and
keep everything else. -/
theorem C65_from_0 (s : Migrations.St) (h : s.version = 0) :
    v1ToV2 (v0ToV1 s) = {
      version := 2
      v0Registry := fun _ => none
      v0Count := none
      v0Index := fun _ => none
      v0AllowDebug := none
      tcbInfo := fun _ => none
      tx := { s.tx with allowDebug := s.v0AllowDebug.getD false } } := by
  simp [v0ToV1, v1ToV2, inCodeVersion, h]

example : oldChain.version = 0 ∧ (v1ToV2 (v0ToV1 oldChain)).tx.allowDebug = true ∧ Demo.start.tx.allowDebug = false :=
  ⟨rfl, rfl, rfl⟩

/-- C65: from version 1 only the TCB infos are purged. -/
theorem C65_from_1 (s : Migrations.St) (h : s.version = 1) :
    v1ToV2 (v0ToV1 s) = { s with version := 2, tcbInfo := fun _ => none } := by
  simp [v0ToV1, v1ToV2, inCodeVersion, h]

example : ({ oldChain with version := 1 } : Migrations.St).version = 1 ∧
    (v1ToV2 (v0ToV1 { oldChain with version := 1 })).v0Count = some 1 := ⟨rfl, rfl⟩

/-- Runs of the two migrations in any order and number. -/
def migrateAll : List Bool → Migrations.St → Migrations.St
  | [], s => s
  | true :: l, s => migrateAll l (v0ToV1 s)
  | false :: l, s => migrateAll l (v1ToV2 s)

/-- C65: at version 2 or later no migration changes anything any more. -/
theorem C65_done (s : Migrations.St) (h : 2 ≤ s.version) (l : List Bool) : migrateAll l s = s := by
  have h1 : v0ToV1 s = s := by unfold v0ToV1; rw [if_pos (by omega)]
  have h2 : v1ToV2 s = s := by unfold v1ToV2 inCodeVersion; rw [if_pos (by omega)]
  induction l with
  | nil => rfl
  | cons b l ih => cases b <;> simp only [migrateAll, h1, h2, ih]

example : 2 ≤ ({ oldChain with version := 2 } : Migrations.St).version := by decide

/-- C65: running both again, any number of times and in any order, changes nothing. -/
theorem C65_once (s : Migrations.St) (l : List Bool) :
    migrateAll l (v1ToV2 (v0ToV1 s)) = v1ToV2 (v0ToV1 s) := by
  refine C65_done _ ?_ l
  unfold v1ToV2 inCodeVersion
  split
  · assumption
  · exact Nat.le_refl _

example : migrateAll [true, false, true] (v1ToV2 (v0ToV1 oldChain)) = v1ToV2 (v0ToV1 oldChain) ∧
    (v1ToV2 (v0ToV1 oldChain)).version ≠ oldChain.version := ⟨C65_once _ _, by decide⟩

/-- C65: no migration decreases the version. -/
theorem C65_version (s : Migrations.St) (l : List Bool) : s.version ≤ (migrateAll l s).version := by
  induction l generalizing s with
  | nil => exact Nat.le_refl _
  | cons b l ih =>
    cases b with
    | true =>
      refine Nat.le_trans ?_ (ih _)
      unfold v0ToV1; split
      · exact Nat.le_refl _
      · simp only; omega
    | false =>
      refine Nat.le_trans ?_ (ih _)
      unfold v1ToV2 inCodeVersion; split
      · exact Nat.le_refl _
      · simp only; omega

example : oldChain.version < (migrateAll [true] oldChain).version := by decide

/-- C65: after an upgrade every TCB info in storage has the new type, so none is misread. -/
theorem C65_types (s : Migrations.St) (h : 2 ≤ s.version → ∀ f x, s.tcbInfo f = some x → x.isRight = true) (l : List Bool)
    (hv : 2 ≤ (migrateAll l s).version) : ∀ f x, (migrateAll l s).tcbInfo f = some x → x.isRight = true := by
  induction l generalizing s with
  | nil => exact h hv
  | cons b l ih =>
    cases b with
    | true =>
      refine ih (v0ToV1 s) ?_ hv
      unfold v0ToV1; split
      · exact h
      · intro h2; simp at h2
    | false =>
      refine ih (v1ToV2 s) ?_ hv
      unfold v1ToV2; split
      · exact h
      · intro _ f x hx; simp at hx

/-- The old chain has a TCB info of the old type. -/
example : (2 ≤ oldChain.version → ∀ f x, oldChain.tcbInfo f = some x → x.isRight = true) ∧
    2 ≤ (migrateAll [true, false] oldChain).version := ⟨fun h => absurd h (by decide), by decide⟩

/-! ### C84 Each migration runs only on the version it is written for -/

/-- The full claim: the second migration does nothing before the first has run. It is false for the code (see
`C84_refuted`). -/
def C84_Full : Prop := ∀ s : Migrations.St, s.version = 0 → v1ToV2 s = s

/-- On a chain at version 0 it sets the version to 2, after which the first migration never runs. -/
theorem C84_refuted : ¬ C84_Full := by
  intro h
  have := congrArg (·.version) (h oldChain rfl)
  simp [v1ToV2, inCodeVersion, oldChain] at this

/-- C84, partial: if only the second migration is part of an upgrade from version 0, the old items stay in storage and
the debug flag of the new pallet is not set from the old one, for ever. Missing: a check for version 1. -/
theorem C84_alone_partial (s : Migrations.St) (h : s.version = 0) (l : List Bool) :
    migrateAll (false :: l) s = { s with version := 2, tcbInfo := fun _ => none } := by
  have : v1ToV2 s = { s with version := 2, tcbInfo := fun _ => none } := by simp [v1ToV2, inCodeVersion, h]
  simp only [migrateAll, this]
  exact C65_done _ (by simp) l

example : oldChain.version = 0 := rfl

/-- C84: the first migration runs only on version 0, the second only below version 2. -/
theorem C84_versions_partial (s : Migrations.St) :
    (1 ≤ s.version → v0ToV1 s = s) ∧ (2 ≤ s.version → v1ToV2 s = s) := by
  refine ⟨fun h => ?_, fun h => ?_⟩
  · unfold v0ToV1; rw [if_pos h]
  · unfold v1ToV2 inCodeVersion; rw [if_pos h]

example : oldChain.version = 0 := rfl

/-! ### C66 Opaque signers are injective and panic free -/

/-- C66: the result for a 32-byte key: no panic, 66 bytes, the key followed by zeros. -/
theorem C66_from32 (k : Arr 32) :
    ∃ b : Bytes, AnySigner.from32 k = some (.opaque b) ∧ b.length = 66 ∧ b.take 32 = k.val ∧ ∀ x ∈ b.drop 32, x = 0 := by
  have hk := k.property
  refine ⟨k.val ++ List.replicate 34 0, ?_, by simp [hk], by rw [List.take_left' hk], ?_⟩
  · simp [AnySigner.from32, opaqueTryFrom, hk]
  · rw [List.drop_left' hk]; intro x hx; exact List.eq_of_mem_replicate hx

example : AnySigner.from32 (Arr.fill 32 7) = some (.opaque (List.replicate 32 7 ++ List.replicate 34 0)) := by decide +kernel

/-- C66: the result for a 64-byte key. -/
theorem C66_from64 (k : Arr 64) :
    ∃ b : Bytes, AnySigner.from64 k = some (.opaque b) ∧ b.length = 66 ∧ b.take 64 = k.val ∧ ∀ x ∈ b.drop 64, x = 0 := by
  have hk := k.property
  refine ⟨k.val ++ List.replicate 2 0, ?_, by simp [hk], by rw [List.take_left' hk], ?_⟩
  · simp [AnySigner.from64, opaqueTryFrom, hk]
  · rw [List.drop_left' hk]; intro x hx; exact List.eq_of_mem_replicate hx

example : AnySigner.from64 (Arr.fill 64 7) = some (.opaque (List.replicate 64 7 ++ [0, 0])) := by decide +kernel

/-- C66: different keys of one size give different signers. -/
theorem C66_injective :
    (∀ k k' : Arr 32, AnySigner.from32 k = AnySigner.from32 k' → k = k') ∧
    ∀ k k' : Arr 64, AnySigner.from64 k = AnySigner.from64 k' → k = k' := by
  refine ⟨fun k k' h => ?_, fun k k' h => ?_⟩
  · obtain ⟨b, h1, _, h2, _⟩ := C66_from32 k
    obtain ⟨b', h1', _, h2', _⟩ := C66_from32 k'
    rw [h1, h1'] at h
    simp only [Option.some.injEq, AnySigner.opaque.injEq] at h
    exact Subtype.ext (by rw [← h2, ← h2', h])
  · obtain ⟨b, h1, _, h2, _⟩ := C66_from64 k
    obtain ⟨b', h1', _, h2', _⟩ := C66_from64 k'
    rw [h1, h1'] at h
    simp only [Option.some.injEq, AnySigner.opaque.injEq] at h
    exact Subtype.ext (by rw [← h2, ← h2', h])

example : AnySigner.from32 (Arr.fill 32 7) ≠ AnySigner.from32 (Arr.fill 32 8) ∧
    AnySigner.from64 (Arr.fill 64 7) ≠ AnySigner.from64 (Arr.fill 64 8) := by decide +kernel

/-- C66: keys of different sizes give the same signer exactly if the long one is the short one followed by zeros. -/
theorem C66_sizes (k : Arr 32) (k' : Arr 64) :
    AnySigner.from32 k = AnySigner.from64 k' ↔ k'.val = k.val ++ List.replicate 32 0 := by
  have hk := k.property
  have hk' := k'.property
  have e : List.replicate 34 (0 : UInt8) = List.replicate 32 0 ++ List.replicate 2 0 := by decide
  simp only [AnySigner.from32, AnySigner.from64, opaqueTryFrom, List.length_append, hk, hk', List.length_replicate]
  simp only [Nat.reduceAdd, Nat.le_refl, if_true, Option.map_some, Option.some.injEq, AnySigner.opaque.injEq]
  rw [e, ← List.append_assoc, List.append_cancel_right_eq]
  exact eq_comm

example : AnySigner.from32 (Arr.fill 32 7) = AnySigner.from64 ⟨List.replicate 32 7 ++ List.replicate 32 0, rfl⟩ := by decide +kernel

example : AnySigner.from32 (Arr.fill 32 7) ≠ AnySigner.from32 (Arr.fill 32 8) ∧
    AnySigner.from32 (Arr.fill 32 7) ≠ AnySigner.from64 (Arr.fill 64 7) := by decide +kernel

end Verif
