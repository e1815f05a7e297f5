import Verif.Props.Primitives

/-!
# Properties of the upgrade checks: C129
-/

namespace Verif

open Migrations

/-! ### C129 The checks around the storage upgrades fit the upgrades -/

theorem decode_encodeV1 (v n : Nat) (d : Bool) (hv : v < 2 ^ 16) (hn : n < 2 ^ 64) :
    decodeV1 (encodeV1 v n d) = some (v, n, d) := by
  have h2 : (toLE 2 v).length = 2 := by simp
  have h8 : (toLE 8 n).length = 8 := by simp
  have e1 : (toLE 2 v ++ toLE 8 n ++ [if d then (1 : UInt8) else 0]).take 2 = toLE 2 v := by
    rw [List.append_assoc, List.take_left' h2]
  have e2 : ((toLE 2 v ++ toLE 8 n ++ [if d then (1 : UInt8) else 0]).drop 2).take 8 = toLE 8 n := by
    rw [List.append_assoc, List.drop_left' h2, List.take_left' h8]
  have e3 : (toLE 2 v ++ toLE 8 n ++ [if d then (1 : UInt8) else 0])[10]? = some (if d then 1 else 0) := by
    rw [List.getElem?_append_right (by simp)]; simp
  unfold decodeV1 encodeV1
  rw [if_pos (by simp), e1, e2, e3, leNat_toLE _ _ (by omega), leNat_toLE _ _ (by omega)]
  cases d <;> rfl

/-- C129: whatever the state of the chain, the checks of the first upgrade pass, also when the upgrade is skipped. -/
theorem C129_first (s : Migrations.St) (hv : s.version < 2 ^ 16) (hn : s.v0Count.getD 0 < 2 ^ 64) :
    (postV1 (v0ToV1 s) (preV1 s)).isOk = true := by
  unfold postV1 preV1
  rw [decode_encodeV1 _ _ _ hv hn]
  unfold v0ToV1
  split
  · rename_i h; simp [okOr, bind, Except.bind, Except.isOk, Except.toBool]
  · rename_i h
    have h0 : s.version = 0 := by omega
    simp [okOr, bind, Except.bind, ensure, Except.isOk, Except.toBool, h0]

example : (postV1 (v0ToV1 oldChain) (preV1 oldChain)).isOk = true ∧ oldChain.version < 2 ^ 16 ∧
    oldChain.v0Count.getD 0 < 2 ^ 64 := ⟨C129_first oldChain (by decide) (by decide), by decide, by decide⟩

/-- C129: the second upgrade is only started on version 1, and then its checks pass. The hypothesis is met by the last
example below. -/
theorem C129_second (s : Migrations.St) (n n' : Nat) (hn : TcbCount (v1ToV2 s) n') :
    ((preV2 s n).isOk = true ↔ s.version = 1) ∧
    (∀ b, preV2 s n = .ok b → (postV2 (v1ToV2 s) n' b).isOk = true) := by
  have hpre : preV2 s n = if s.version = 1 then .ok (toLE 8 n) else .error .other := by
    unfold preV2 inCodeVersion
    by_cases h : s.version = 1 <;> simp [h, ensure, bind, Except.bind]
  refine ⟨?_, ?_⟩
  · rw [hpre]; split <;> simp_all [Except.isOk, Except.toBool]
  · intro b hb
    rw [hpre] at hb
    split at hb
    · rename_i h1
      cases hb
      have hup : v1ToV2 s = { s with tcbInfo := fun _ => none, version := 2 } := by
        unfold v1ToV2 inCodeVersion; rw [if_neg (by omega)]
      rw [hup] at hn ⊢
      obtain ⟨keys, _, hk, rfl⟩ := hn
      have : keys = [] := by
        cases keys with
        | nil => rfl
        | cons k l => exact absurd ((hk k).mp (by simp)) (by simp)
      subst this
      simp [postV2, ensure, bind, Except.bind, Except.isOk, Except.toBool]
    · cases hb

/-- C129: from version 0 or 1 both upgrades in order, each with its checks, end in version 2, with no check failing. The
hypotheses are met by the last example below. -/
theorem C129_sequence (s : Migrations.St) (hv : s.version ≤ 1) (hc : s.v0Count.getD 0 < 2 ^ 64) (n n' : Nat)
    (hn : TcbCount (v1ToV2 (v0ToV1 s)) n') :
    (postV1 (v0ToV1 s) (preV1 s)).isOk = true ∧
    (∃ b, preV2 (v0ToV1 s) n = .ok b ∧ (postV2 (v1ToV2 (v0ToV1 s)) n' b).isOk = true) ∧
    (v1ToV2 (v0ToV1 s)).version = 2 := by
  have h1 : (v0ToV1 s).version = 1 := by
    unfold v0ToV1; split
    · omega
    · rfl
  obtain ⟨ha, hb⟩ := C129_second (v0ToV1 s) n n' hn
  refine ⟨C129_first s (by omega) hc, ?_, ?_⟩
  · cases hp : preV2 (v0ToV1 s) n with
    | ok b => exact ⟨b, rfl, hb b hp⟩
    | error e => rw [hp] at ha; exact absurd (ha.mpr h1) (by simp [Except.isOk, Except.toBool])
  · unfold v1ToV2 inCodeVersion; rw [if_neg (by omega)]

/-- C129: what the check after the first upgrade guarantees about any state it accepts, whatever produced it: the
version did not grow, or it is 1, no enclave is counted, and the debug flag is the old one. -/
theorem C129_guarantee (s s' : Migrations.St) (hv : s.version < 2 ^ 16) (hn : s.v0Count.getD 0 < 2 ^ 64)
    (h : (postV1 s' (preV1 s)).isOk = true) :
    s'.version ≤ s.version ∨
      (s'.version = 1 ∧ s'.v0Count.getD 0 = 0 ∧ s'.tx.allowDebug = s.v0AllowDebug.getD false) := by
  unfold postV1 preV1 at h
  rw [decode_encodeV1 _ _ _ hv hn] at h
  by_cases h1 : s'.version ≤ s.version
  · exact Or.inl h1
  · right
    simp only [okOr, bind, Except.bind] at h
    rw [if_neg (by simpa using h1)] at h
    by_cases a : s'.version = 1
    · by_cases b : s'.v0Count.getD 0 = 0
      · by_cases c : s'.tx.allowDebug = s.v0AllowDebug.getD false
        · exact ⟨a, b, c⟩
        · simp [ensure, a, b, c, Except.isOk, Except.toBool] at h
      · simp [ensure, a, b, Except.isOk, Except.toBool] at h
    · simp [ensure, a, Except.isOk, Except.toBool] at h

/-- C129: the check after the second upgrade accepts exactly the states at version 2 without any TCB info, whatever produced
them. The hypotheses are met by the last example below. -/
theorem C129_guarantee_second (s s' : Migrations.St) (n n' : Nat) (b : Bytes) (hb : preV2 s n = .ok b) (hn : TcbCount s' n') :
    (postV2 s' n' b).isOk = true ↔ s'.version = 2 ∧ ∀ f, s'.tcbInfo f = none := by
  have hlen : 8 ≤ b.length := by
    unfold preV2 at hb
    by_cases h : (s.version == 1 && inCodeVersion == 2) = true
    · simp only [ensure, h, if_true, bind, Except.bind, Except.ok.injEq] at hb
      subst hb; simp
    · simp [ensure, h, bind, Except.bind] at hb
  have hz : n' = 0 ↔ ∀ f, s'.tcbInfo f = none := by
    obtain ⟨keys, _, hk, rfl⟩ := hn
    rw [List.length_eq_zero_iff]
    constructor
    · rintro rfl f
      have := hk f
      cases h : s'.tcbInfo f with
      | none => rfl
      | some v => rw [h] at this; simp at this
    · intro h
      refine List.eq_nil_iff_forall_not_mem.mpr fun k hk' => ?_
      have := (hk k).mp hk'
      rw [h k] at this; simp at this
  rw [← hz]
  unfold postV2
  by_cases h1 : s'.version = 2 <;> by_cases h2 : n' = 0 <;>
    simp [ensure, h1, h2, hlen, bind, Except.bind, Except.isOk, Except.toBool]

/-- A chain with an enclave, a count and the debug flag meets the hypotheses; at version 2 the second upgrade is
refused by its check although it would do nothing. -/
example : oldChain.version ≤ 1 ∧ oldChain.v0Count.getD 0 < 2 ^ 64 ∧
    TcbCount (v1ToV2 (v0ToV1 oldChain)) 0 ∧
    (preV2 { oldChain with version := 2 } 0).isOk = false ∧ preV2 (v0ToV1 oldChain) 0 = .ok (toLE 8 0) :=
  ⟨by decide, by decide, ⟨[], List.nodup_nil, by intro k; simp [v1ToV2, v0ToV1, oldChain, inCodeVersion], rfl⟩, rfl, rfl⟩

end Verif
