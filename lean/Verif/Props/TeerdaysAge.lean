import Verif.Props.TeerdaysExit

/-!
# Tokentime and the age of a bond: C133
-/

namespace Verif

open Demo

/-! ### C133 Tokentime cannot be older than the bond -/

/-- The last time the account bonded, after these accepted operations, was in state `s`. -/
def BondedSince (acc : List (Chain × Op)) (a : AccountId) (s : Chain) : Prop :=
  ∃ before v after, acc = before ++ (s, .ext (.signed a) (.bond v)) :: after ∧
    ∀ p ∈ after, ∀ w, p.2 ≠ .ext (.signed a) (.bond w)

theorem BondedSince.snoc {acc : List (Chain × Op)} {a : AccountId} {s t : Chain} {op : Op} (h : BondedSince acc a s)
    (hop : ∀ w, op ≠ .ext (.signed a) (.bond w)) : BondedSince (acc ++ [(t, op)]) a s := by
  obtain ⟨before, v, after, rfl, ha⟩ := h
  refine ⟨before, v, after ++ [(t, op)], by simp, fun p hp => ?_⟩
  rcases List.mem_append.mp hp with hp | hp
  · exact ha p hp
  · rw [List.mem_singleton.mp hp]; exact hop

theorem age_update {balMax : Nat} {b : Bond} {t0 now : Nat} (h0 : t0 ≤ b.lastUpdated) (h1 : b.lastUpdated ≤ now)
    (h : b.tokentime ≤ b.value * (b.lastUpdated - t0)) :
    (b.update balMax now).tokentime ≤ b.value * (now - t0) := by
  have e : now - t0 = (b.lastUpdated - t0) + (now - b.lastUpdated) := by omega
  rw [e, Nat.mul_add]
  simp only [Bond.update, satAdd, satMul]
  omega

theorem age_run (c : Cfg) (s0 : Chain) (a : AccountId) (ops : List Op) (h0 : s0.td.bonds a = none) :
    ∀ b, (run c s0 ops).td.bonds a = some b → ∃ s, BondedSince (accepted c s0 ops) a s ∧ s.now ≤ b.lastUpdated ∧
      b.lastUpdated ≤ (run c s0 ops).now ∧ b.tokentime ≤ b.value * (b.lastUpdated - s.now) := by
  refine history_induction (c := c) (s0 := s0) (P := fun t acc => ∀ b, t.td.bonds a = some b → ∃ s, BondedSince acc a s ∧
    s.now ≤ b.lastUpdated ∧ b.lastUpdated ≤ t.now ∧ b.tokentime ≤ b.value * (b.lastUpdated - s.now)) ?_ ?_ ops
  · intro b hb; rw [h0] at hb; simp at hb
  · intro t t' op acc ih hx b' hb'
    have hle := exec_now_le hx
    cases tdEffect hx a with
    | same hno hv =>
      obtain ⟨h1, h2, h3⟩ := view_same hv; rw [h1] at hb'
      obtain ⟨s, i1, i2, i3, i4⟩ := ih b' hb'
      exact ⟨s, i1.snoc (fun w e => hno (.inl ⟨w, e⟩)), i2, by omega, i4⟩
    | updated hn hb hv =>
      obtain ⟨h1, h2, h3⟩ := view_bond hv
      rw [h1] at hb'; simp only [Option.some.injEq] at hb'; subst hb'
      obtain ⟨s, i1, i2, i3, i4⟩ := ih _ hb
      exact ⟨s, i1.snoc (by simp), by simp only [Bond.update]; omega, by simp [Bond.update, hn], age_update i2 i3 i4⟩
    | bond hn _ hb _ hv =>
      obtain ⟨h1, h2, h3⟩ := view_bond hv
      rw [h1] at hb'; simp only [Option.some.injEq] at hb'; subst hb'
      exact ⟨t, ⟨acc, _, [], rfl, by simp⟩, Nat.le_refl _, by simp [hn], by simp⟩
    | extra hn hf hb hp he hnew hv =>
      rename_i v new b
      obtain ⟨h1, h2, h3⟩ := view_bond hv
      rw [h1] at hb'; simp only [Option.some.injEq] at hb'; subst hb'
      obtain ⟨s, i1, i2, i3, i4⟩ := ih _ hb
      refine ⟨s, i1.snoc (by simp), by simp only [Bond.update]; omega, by simp [Bond.update, hn], ?_⟩
      have hu := age_update (balMax := c.balMax) i2 i3 i4
      have hm : (b.update c.balMax t.now).tokentime ≤ c.balMax := by simp only [Bond.update, satAdd]; omega
      show (b.update c.balMax t.now).tokentime ≤ new * (t.now - s.now)
      generalize (b.update c.balMax t.now).tokentime = x at hu hm
      rw [hnew]
      unfold satAdd
      generalize min v (t.bal.free a - b.value) = w
      cases hd : t.now - s.now with
      | zero => rw [hd] at hu; simpa using hu
      | succ d =>
        rw [hd] at hu
        rcases Nat.le_total (b.value + w) c.balMax with hc | hc
        · rw [Nat.min_eq_left hc]
          exact Nat.le_trans hu (Nat.mul_le_mul_right _ (by omega))
        · rw [Nat.min_eq_right hc]
          exact Nat.le_trans hm (Nat.le_mul_of_pos_right _ (by omega))
    | unbond hn hf hb hp he hd hleft hv =>
      rename_i v due left b
      obtain ⟨h1, h2, h3⟩ := view_bond hv
      rw [h1] at hb'
      simp only [] at hb'
      split at hb'
      · simp at hb'
      · simp only [Option.some.injEq] at hb'; subst hb'
        obtain ⟨s, i1, i2, i3, i4⟩ := ih _ hb
        refine ⟨s, i1.snoc (by simp), by show s.now ≤ t.now; omega, by simp [hn], ?_⟩
        have hu := age_update (balMax := c.balMax) i2 i3 i4
        show left ≤ (b.value - v) * (t.now - s.now)
        rw [hleft]
        unfold Teerdays.leftTokentime satMul Teerdays.divOrZero
        have hval : (b.update c.balMax t.now).value = b.value := rfl
        rw [hval]
        split
        · simp
        · rename_i hz
          refine Nat.le_trans (Nat.min_le_left _ _) ?_
          rw [Nat.mul_comm]
          refine Nat.mul_le_mul_left _ ?_
          rw [Nat.div_le_iff_le_mul_add_pred (by omega)]
          omega
    | withdraw hn _ hp _ hv =>
      obtain ⟨h1, h2, h3⟩ := view_bond hv
      rw [h1] at hb'
      obtain ⟨s, i1, i2, i3, i4⟩ := ih b' hb'
      exact ⟨s, i1.snoc (by simp), i2, by omega, i4⟩

/-- C133: after any history, whoever has a bond has at most bonded value × time since the account last called `bond`.
Topping up a bond, or unbonding a part of it, never makes the tokens that stay look older than the bond. -/
theorem C133_age (c : Cfg) (s0 : Chain) (a : AccountId) (ops : List Op) (h0 : s0.td.bonds a = none)
    (hb : (run c s0 ops).td.bonds a ≠ none) :
    ∃ s, BondedSince (accepted c s0 ops) a s ∧ s.now ≤ (run c s0 ops).now ∧
      tokentimeNow c (run c s0 ops) a ≤ bondValue (run c s0 ops) a * ((run c s0 ops).now - s.now) := by
  obtain ⟨b, hb⟩ := Option.ne_none_iff_exists'.mp hb
  obtain ⟨s, h1, h2, h3, h4⟩ := age_run c s0 a ops h0 b hb
  refine ⟨s, h1, by omega, ?_⟩
  have := age_update (balMax := c.balMax) h2 h3 h4
  simp only [tokentimeNow_def, bondValue, hb]
  exact this

/-- Bonded at 5000, topped up and partly unbonded later: the average age of the 300 that stay is below that of the bond. -/
example :
    let s := run cfg start [.ext (.signed alice) (.bond 100), .newBlock 50, .ext (.signed alice) (.bondExtra 400),
      .newBlock 50, .ext (.signed alice) (.unbond 200), .newBlock 7]
    start.td.bonds alice = none ∧ s.td.bonds alice ≠ none ∧ bondValue s alice = 300 ∧ s.now = 5107 ∧
    tokentimeNow cfg s alice = 20100 ∧ 20100 ≤ 300 * (5107 - 5000) := by decide +kernel

end Verif
