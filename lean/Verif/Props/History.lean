import Verif.Spec.History
import Verif.Props.Effect
import Verif.Props.Refusal

/-!
# Whole histories against the description: C156
-/

namespace Verif

open Demo

/-- What became of an operation, by its result. -/
def outcomeOf : Except Err Chain → Outcome
  | .ok _ => .done
  | .error e => .refused e

/-- The outcomes of a history. -/
def outcomes (c : Cfg) (s : Chain) : List Op → List Outcome
  | [] => []
  | op :: ops => outcomeOf (exec c s op) :: outcomes c (step c s op) ops

/-! ### The outside world -/

theorem noNews_bal {s : Chain} {b : Balances} : NoNews s { s with bal := b } := ⟨rfl, rfl, rfl, rfl, rfl, rfl, rfl, rfl⟩

/-- Changes of money only. -/
theorem onlyAt_money {s : Chain} {b : Balances} {l : List Place} (hm : ∀ a, Place.money a ∉ l → (Place.money a).same s { s with bal := b })
    (hs : ∀ a, Place.schedules a ∉ l → s.bal.schedules a = b.schedules a)
    (hi : Place.issuance ∉ l → s.bal.issuance = b.issuance) : OnlyAt s { s with bal := b } l := by
  refine ⟨rfl, rfl, fun x hx => ?_⟩
  cases x with
  | money a => exact hm a hx
  | schedules a => exact hs a hx
  | issuance => exact hi hx
  | _ => simp [Place.same]

theorem sum_filter_zero (l : List VestingInfo) (n : Nat) :
    ((l.filter fun v => v.lockedAt n ≠ 0).map fun v => v.lockedAt n).sum = (l.map fun v => v.lockedAt n).sum := by
  induction l with
  | nil => rfl
  | cons v l ih =>
    by_cases h : v.lockedAt n = 0
    · simp [List.filter_cons, h] at ih ⊢; exact ih
    · simp [List.filter_cons, h] at ih ⊢; exact ih

theorem scheduledAs {s : Chain} {a : AccountId} {l : List VestingInfo} :
    OnlyAt s { s with bal := s.bal.updateVesting s.block a l } [.money a, .schedules a] ∧
    ScheduledAs s { s with bal := s.bal.updateVesting s.block a l } a l := by
  constructor
  · refine onlyAt_money (fun x hx => ?_) (fun x hx => ?_) (fun _ => rfl)
    · have hne : x ≠ a := fun h => hx (by simp [h])
      refine ⟨rfl, fun id => ?_⟩
      simp only [Balances.updateVesting, upd]
      split
      · rename_i h; simp [hne, h]
      · rfl
    · have hne : x ≠ a := fun h => hx (by simp [h])
      simp [Balances.updateVesting, upd, hne]
  · refine ⟨by simp [Balances.updateVesting], ?_, rfl, fun id hid => by simp [Balances.updateVesting, upd, hid]⟩
    have := sum_filter_zero l s.block
    simpa [Balances.updateVesting] using this

/-- An action of the outside world does what is described. -/
theorem outside_effect {c : Cfg} {s s' : Chain} {op : Op} (ho : ∀ o k, op ≠ .ext o k) (h : exec c s op = .ok s') :
    OutsideEffect c s s' op ∧ NoNews s s' := by
  cases op with
  | ext o k => exact absurd rfl (ho o k)
  | newBlock dt =>
    cases h
    exact ⟨⟨rfl, rfl, fun x => by cases x <;> simp [Place.same]⟩, ⟨rfl, rfl, rfl, rfl, rfl, rfl, rfl, rfl⟩⟩
  | mint a v =>
    cases h
    refine ⟨?_, noNews_bal⟩
    simp only [OutsideEffect, Balances.depositCreating, arriving]
    split
    · rename_i hc
      have hz : (if (s.bal.free a = 0 ∧ v < c.ed) ∨ c.balMax < s.bal.free a + v ∨ c.balMax < s.bal.issuance + v then 0
          else v) = 0 := by
        rcases hc with rfl | hc
        · simp
        · simp [hc]
      rw [hz]
      exact ⟨onlyAt_money (fun _ _ => ⟨rfl, fun _ => rfl⟩) (fun _ _ => rfl) (fun _ => rfl), rfl, rfl, fun _ => rfl⟩
    · rename_i hc
      have hc' : ¬((s.bal.free a = 0 ∧ v < c.ed) ∨ c.balMax < s.bal.free a + v ∨ c.balMax < s.bal.issuance + v) :=
        fun h => hc (.inr h)
      rw [if_neg hc']
      refine ⟨onlyAt_money (fun x hx => ⟨?_, fun _ => rfl⟩) (fun _ _ => rfl) (fun hx => absurd (by simp) hx), by simp, rfl, fun _ => rfl⟩
      have hne : x ≠ a := fun h => hx (by simp [h])
      simp [upd, hne]
  | slash a v =>
    cases h
    refine ⟨⟨onlyAt_money (fun x hx => ⟨?_, fun _ => rfl⟩) (fun _ _ => rfl) (fun hx => absurd (by simp) hx), by simp, rfl, fun _ => rfl⟩,
      noNews_bal⟩
    have hne : x ≠ a := fun h => hx (by simp [h])
    simp [upd, hne]
  | setOtherLock a v =>
    cases h
    refine ⟨⟨onlyAt_money (fun x hx => ⟨rfl, fun id => ?_⟩) (fun _ _ => rfl) (fun _ => rfl), rfl, by simp, fun id hid => by simp [upd, hid]⟩,
      noNews_bal⟩
    have hne : x ≠ a := fun h => hx (by simp [h])
    simp only [upd]
    split
    · rename_i h; simp [hne, h]
    · rfl
  | vest a =>
    cases h
    exact ⟨scheduledAs, noNews_bal⟩
  | addVesting a v =>
    simp only [exec, Balances.addVesting] at h
    simp only [OutsideEffect]
    split at h
    · rename_i b hb
      cases h
      split at hb
      · rename_i h0
        cases hb
        rw [if_pos h0]
        exact ⟨⟨rfl, rfl, fun x _ => Place.same.refl _ _⟩, noNews_bal⟩
      · rename_i h0
        rw [if_neg h0]
        split at hb
        · cases hb
        · split at hb
          · cases hb
          · cases hb
            exact ⟨scheduledAs, noNews_bal⟩
    · cases h
  | setAsset id m =>
    cases h
    refine ⟨⟨⟨rfl, rfl, fun x hx => ?_⟩, by simp⟩, ⟨rfl, rfl, rfl, rfl, rfl, rfl, rfl, rfl⟩⟩
    cases x with
    | asset i =>
      have hne : i ≠ id := fun h => hx (by simp [h])
      simp [Place.same, upd, hne]
    | _ => simp [Place.same]
  | destroyAsset id =>
    cases h
    refine ⟨⟨⟨rfl, rfl, fun x hx => ?_⟩, by simp⟩, ⟨rfl, rfl, rfl, rfl, rfl, rfl, rfl, rfl⟩⟩
    cases x with
    | asset i =>
      have hne : i ≠ id := fun h => hx (by simp [h])
      simp [Place.same, upd, hne]
    | _ => simp [Place.same]

/-- The description of an action of the outside world leaves no freedom. -/
theorem outside_unique {c : Cfg} {s s1 s2 : Chain} {op : Op} (h1 : OutsideEffect c s s1 op) (h2 : OutsideEffect c s s2 op)
    (n1 : NoNews s s1) (n2 : NoNews s s2) : s1 = s2 := by
  have only : ∀ l, OnlyAt s s1 l → OnlyAt s s2 l → (∀ x ∈ l, x.same s1 s2) → s1 = s2 := by
    rintro l ⟨a1, a2, a3⟩ ⟨b1, b2, b3⟩ hl
    refine chain_ext (a1.trans b1.symm) (a2.trans b2.symm) (fun x => ?_) n1 n2
    by_cases hx : x ∈ l
    · exact hl x hx
    · exact (a3 x hx).symm.trans (b3 x hx)
  cases op with
  | ext o k => exact absurd h1 id
  | newBlock dt =>
    obtain ⟨a1, a2, a3⟩ := h1
    obtain ⟨b1, b2, b3⟩ := h2
    exact chain_ext (a2.trans b2.symm) (a1.trans b1.symm) (fun x => (a3 x).symm.trans (b3 x)) n1 n2
  | mint a v =>
    obtain ⟨a1, a2, a3, a4⟩ := h1
    obtain ⟨b1, b2, b3, b4⟩ := h2
    refine only _ a1 b1 fun x hx => ?_
    simp only [List.mem_cons, List.not_mem_nil, or_false] at hx
    rcases hx with rfl | rfl
    · exact ⟨a2.trans b2.symm, fun id => (a4 id).trans (b4 id).symm⟩
    · exact a3.trans b3.symm
  | slash a v =>
    obtain ⟨a1, a2, a3, a4⟩ := h1
    obtain ⟨b1, b2, b3, b4⟩ := h2
    refine only _ a1 b1 fun x hx => ?_
    simp only [List.mem_cons, List.not_mem_nil, or_false] at hx
    rcases hx with rfl | rfl
    · exact ⟨a2.trans b2.symm, fun id => (a4 id).trans (b4 id).symm⟩
    · exact a3.trans b3.symm
  | setOtherLock a v =>
    obtain ⟨a1, a2, a3, a4⟩ := h1
    obtain ⟨b1, b2, b3, b4⟩ := h2
    refine only _ a1 b1 fun x hx => ?_
    simp only [List.mem_cons, List.not_mem_nil, or_false] at hx
    obtain rfl := hx
    refine ⟨a2.trans b2.symm, fun id => ?_⟩
    by_cases hid : id = .other
    · rw [hid]; exact a3.trans b3.symm
    · exact (a4 id hid).trans (b4 id hid).symm
  | vest a =>
    obtain ⟨a1, a2⟩ := h1
    obtain ⟨b1, b2⟩ := h2
    exact only _ a1 b1 (scheduled_unique a2 b2)
  | addVesting a v =>
    simp only [OutsideEffect] at h1 h2
    split at h1
    · rename_i h0
      rw [if_pos h0] at h2
      exact only _ h1 h2 fun x hx => absurd hx List.not_mem_nil
    · rename_i h0
      rw [if_neg h0] at h2
      exact only _ h1.1 h2.1 (scheduled_unique h1.2 h2.2)
  | setAsset id m =>
    refine only _ h1.1 h2.1 fun x hx => ?_
    simp only [List.mem_cons, List.not_mem_nil, or_false] at hx
    obtain rfl := hx
    exact h1.2.trans h2.2.symm
  | destroyAsset id =>
    refine only _ h1.1 h2.1 fun x hx => ?_
    simp only [List.mem_cons, List.not_mem_nil, or_false] at hx
    obtain rfl := hx
    exact h1.2.trans h2.2.symm
where
  scheduled_unique {s s1 s2 : Chain} {a : AccountId} {l : List VestingInfo} (h1 : ScheduledAs s s1 a l)
      (h2 : ScheduledAs s s2 a l) : ∀ x ∈ [Place.money a, Place.schedules a], x.same s1 s2 := by
    obtain ⟨a1, a2, a3, a4⟩ := h1
    obtain ⟨b1, b2, b3, b4⟩ := h2
    intro x hx
    simp only [List.mem_cons, List.not_mem_nil, or_false] at hx
    rcases hx with rfl | rfl
    · refine ⟨a3.trans b3.symm, fun id => ?_⟩
      by_cases hid : id = .vesting
      · rw [hid]; exact a2.trans b2.symm
      · exact (a4 id hid).trans (b4 id hid).symm
    · exact a1.trans b1.symm

/-- Only a new vesting schedule is ever refused, for the described reasons. -/
theorem outside_accepted {c : Cfg} {s : Chain} {op : Op} (ho : ∀ o k, op ≠ .ext o k) :
    ((∃ s', exec c s op = .ok s') ↔ AllHold (outsideConditions c s op)) ∧
    ∀ e, exec c s op = .error e ↔ FirstFailing (outsideConditions c s op) e := by
  cases op with
  | ext o k => exact absurd rfl (ho o k)
  | addVesting a v =>
    simp only [exec, Balances.addVesting, outsideConditions, AllHold, FirstFailing, List.mem_cons, List.not_mem_nil, or_false,
      forall_eq_or_imp, forall_eq]
    by_cases h0 : v.locked = 0
    · simp [h0]
    · by_cases h1 : v.perBlock = 0
      · simp [h0, h1, eq_comm]
      · by_cases h2 : c.maxSchedules ≤ (s.bal.schedules a).length
        · simp [h0, h1, h2, Nat.not_lt.mpr h2, eq_comm]
        · simp [h0, h1, h2, Nat.lt_of_not_le h2]
  | _ =>
    refine ⟨⟨fun _ => by simp [AllHold, outsideConditions], fun _ => ⟨_, rfl⟩⟩, fun e => ⟨fun h => ?_, fun h => h.elim⟩⟩
    simp [exec] at h

/-! ### C156 A chain is a history of the description -/

/-- One operation is as described exactly if it has this result and outcome. -/
theorem described_iff {c : Cfg} {s : Chain} (hs : StatusOk s) (op : Op) (r : Outcome) (s' : Chain) :
    Described c s s' op r ↔ r = outcomeOf (exec c s op) ∧ s' = step c s op := by
  by_cases ho : ∃ o k, op = .ext o k
  · obtain ⟨o, k, rfl⟩ := ho
    cases hx : exec c s (.ext o k) with
    | ok t =>
      rw [step_of_ok hx]
      cases r with
      | done =>
        simp only [Described, Performed, OnlyAt, outcomeOf, true_and]
        have := exactly hs o k s' (c := c)
        rw [hx] at this
        simp only [Except.ok.injEq] at this
        constructor
        · rintro ⟨h1, h2, ⟨h3, h4, h5⟩, h6⟩
          exact (this.mpr ⟨h1, h2, h3, h4, h5, h6⟩).symm
        · rintro rfl
          obtain ⟨h1, h2, h3, h4, h5, h6⟩ := this.mp rfl
          exact ⟨h1, h2, ⟨h3, h4, h5⟩, h6⟩
      | refused e =>
        simp only [Described, ← conditions_checks hs o k e, hx, outcomeOf, reduceCtorEq, false_and]
    | error e =>
      rw [step_of_error hx]
      cases r with
      | done =>
        simp only [Described, Performed, OnlyAt, outcomeOf, reduceCtorEq, false_and, iff_false]
        rintro ⟨h1, -⟩
        obtain ⟨t, ht⟩ := (accepts_iff hs o k).mpr h1
        rw [hx] at ht; cases ht
      | refused e' =>
        simp only [Described, ← conditions_checks hs o k e', hx, outcomeOf, Except.error.injEq, Outcome.refused.injEq]
        exact ⟨fun h => ⟨h.1.symm, h.2⟩, fun h => ⟨h.1.symm, h.2⟩⟩
  · have ho' : ∀ o k, op ≠ .ext o k := fun o k h => ho ⟨o, k, h⟩
    have hd : Described c s s' op .done ↔ AllHold (outsideConditions c s op) ∧ OutsideEffect c s s' op ∧ NoNews s s' := by
      cases op <;> first | rfl | exact absurd rfl (ho' _ _)
    have hr : ∀ e, Described c s s' op (.refused e) ↔ FirstFailing (outsideConditions c s op) e ∧ s' = s := by
      intro e
      cases op <;> first | rfl | exact absurd rfl (ho' _ _)
    obtain ⟨ha, he⟩ := outside_accepted ho' (c := c) (s := s)
    cases hx : exec c s op with
    | ok t =>
      rw [step_of_ok hx]
      obtain ⟨t1, t2⟩ := outside_effect ho' hx
      cases r with
      | done =>
        rw [hd]
        simp only [outcomeOf, true_and]
        constructor
        · rintro ⟨_, h1, h2⟩; exact outside_unique h1 t1 h2 t2
        · rintro rfl; exact ⟨ha.mp ⟨_, hx⟩, t1, t2⟩
      | refused e =>
        rw [hr, ← he, hx]
        simp only [outcomeOf, reduceCtorEq, false_and]
    | error e =>
      rw [step_of_error hx]
      cases r with
      | done =>
        rw [hd, ← ha, hx]
        simp only [outcomeOf, reduceCtorEq, exists_false, false_and]
      | refused e' =>
        rw [hr, ← he, hx]
        simp only [outcomeOf, Except.error.injEq, Outcome.refused.injEq]
        exact ⟨fun h => ⟨h.1.symm, h.2⟩, fun h => ⟨h.1.symm, h.2⟩⟩

theorem history_iff {c : Cfg} {s : Chain} (hs : StatusOk s) (ops : List Op) (rs : List Outcome) (s' : Chain) :
    History c s ops rs s' ↔ rs = outcomes c s ops ∧ s' = run c s ops := by
  induction ops generalizing s rs with
  | nil =>
    constructor
    · rintro ⟨⟩; exact ⟨rfl, rfl⟩
    · rintro ⟨rfl, rfl⟩; exact .none _
  | cons op ops ih =>
    have hs1 : StatusOk (step c s op) := statusOk_run (c := c) hs [op]
    constructor
    · rintro (_ | ⟨h1, h2⟩)
      obtain ⟨rfl, rfl⟩ := (described_iff hs op _ _).mp h1
      obtain ⟨rfl, rfl⟩ := (ih hs1 _).mp h2
      exact ⟨rfl, rfl⟩
    · rintro ⟨rfl, rfl⟩
      exact .next ((described_iff hs op _ _).mpr ⟨rfl, rfl⟩) ((ih hs1 _).mpr ⟨rfl, rfl⟩)

/-- **C156** The chain and the description have the same histories: a list of outcomes and a final state are possible by
the description exactly if the operations have these outcomes and lead to this state. -/
theorem C156_histories (c : Cfg) (s0 : Chain) (h0 : FreshBridge s0) (ops : List Op) (rs : List Outcome) (s' : Chain) :
    History c s0 ops rs s' ↔ rs = outcomes c s0 ops ∧ s' = run c s0 ops :=
  history_iff (statusOk_fresh h0) ops rs s'

/-- By the description, Alice's bond is accepted, a second bond is refused for the reason that there is one, a block later
the bond can be extended, and a vesting schedule that never releases anything is refused. -/
example : History cfg start
    [.ext (.signed alice) (.bond 100), .ext (.signed alice) (.bond 100), .newBlock 6000,
      .ext (.signed alice) (.bondExtra 50), .addVesting alice ⟨10, 0, 0⟩]
    [.done, .refused .alreadyBonded, .done, .done, .refused (.bal .invalidScheduleParams)]
    (run cfg start [.ext (.signed alice) (.bond 100), .newBlock 6000, .ext (.signed alice) (.bondExtra 50)]) :=
  (C156_histories cfg start ⟨fun _ => rfl, fun _ => rfl, fun _ => rfl⟩ _ _ _).mpr
    ⟨by decide +kernel, by
      have h : exec cfg (step cfg start (.ext (.signed alice) (.bond 100))) (.ext (.signed alice) (.bond 100)) =
        .error .alreadyBonded := errorOf_some (by decide +kernel)
      simp only [run, List.foldl_cons, List.foldl_nil]
      rw [step_of_error h]
      exact (step_of_error (e := .bal .invalidScheduleParams) (errorOf_some rfl)).symm⟩

/-- **C156** By the description every list of operations has exactly one course. -/
theorem C156_one_course (c : Cfg) (s0 : Chain) (h0 : FreshBridge s0) (ops : List Op) :
    (∃ rs s', History c s0 ops rs s') ∧
    ∀ rs s' rs' s'', History c s0 ops rs s' → History c s0 ops rs' s'' → rs = rs' ∧ s' = s'' := by
  refine ⟨⟨_, _, (C156_histories c s0 h0 ops _ _).mpr ⟨rfl, rfl⟩⟩, fun rs s' rs' s'' h h' => ?_⟩
  obtain ⟨rfl, rfl⟩ := (C156_histories c s0 h0 ops _ _).mp h
  obtain ⟨rfl, rfl⟩ := (C156_histories c s0 h0 ops _ _).mp h'
  exact ⟨rfl, rfl⟩

/-- For example from the start of the examples, with an accepted and a refused call. -/
example : FreshBridge start ∧ (∃ rs s', History cfg start [.ext (.signed alice) (.bond 100), .ext (.signed alice) (.bond 100)] rs s') :=
  ⟨⟨fun _ => rfl, fun _ => rfl, fun _ => rfl⟩, (C156_one_course cfg start ⟨fun _ => rfl, fun _ => rfl, fun _ => rfl⟩ _).1⟩

end Verif
