import Verif.Model.DateText
import Verif.Proofs.JsonText

/-!
# Counting days, reading dates
-/

namespace Verif

namespace CivilTime

theorem daysBeforeYear_lt {y z : Nat} (h : y < z) : daysBeforeYear y + yearLength y ≤ daysBeforeYear z := by
  induction z with
  | zero => omega
  | succ z ih =>
    by_cases hz : y = z
    · subst hz; exact Nat.le_refl _
    · have := ih (by omega)
      simp only [daysBeforeYear]; omega

theorem daysBeforeMonth_lt {y m n : Nat} (h : m < n) : daysBeforeMonth y m + monthLength y m ≤ daysBeforeMonth y n := by
  induction n with
  | zero => omega
  | succ n ih =>
    by_cases hz : m = n
    · subst hz; exact Nat.le_refl _
    · have := ih (by omega)
      simp only [daysBeforeMonth]; omega

theorem daysBeforeMonth_year (y : Nat) : daysBeforeMonth y 13 = yearLength y := by
  simp only [daysBeforeMonth, monthLength, yearLength]
  cases leap y <;> rfl

theorem dayOfYear_lt {c : CivilTime} (h : c.Valid) : daysBeforeMonth c.year c.month + (c.day - 1) < yearLength c.year := by
  obtain ⟨_, h1, h2, h3, h4, _⟩ := h
  have := daysBeforeMonth_lt (y := c.year) (m := c.month) (n := 13) (by omega)
  rw [daysBeforeMonth_year] at this
  omega

/-- Earlier dates have smaller numbers. -/
theorem dayNumber_lt {a b : CivilTime} (ha : a.Valid) (hb : b.Valid)
    (h : a.year < b.year ∨ a.year = b.year ∧ (a.month < b.month ∨ a.month = b.month ∧ a.day < b.day)) :
    a.dayNumber < b.dayNumber := by
  have h1 := dayOfYear_lt ha
  obtain ⟨_, a1, a2, a3, a4, _⟩ := ha
  obtain ⟨_, b1, b2, b3, b4, _⟩ := hb
  unfold dayNumber
  rcases h with h | ⟨hy, h⟩
  · have := daysBeforeYear_lt h
    omega
  · rw [hy] at a4 ⊢
    rcases h with h | ⟨hm, h⟩
    · have := daysBeforeMonth_lt (y := b.year) h
      omega
    · rw [hm]; omega

theorem seconds_lt {a b : CivilTime} (ha : a.Valid) (hb : b.Valid) (h : a.Before b) : a.seconds < b.seconds := by
  by_cases hd : a.year < b.year ∨ a.year = b.year ∧ (a.month < b.month ∨ a.month = b.month ∧ a.day < b.day)
  · have h1 := dayNumber_lt ha hb hd
    obtain ⟨_, _, _, _, _, a1, a2, a3⟩ := ha
    obtain ⟨_, _, _, _, _, b1, b2, b3⟩ := hb
    unfold seconds
    omega
  · have hs : a.year = b.year ∧ a.month = b.month ∧ a.day = b.day ∧
        (a.hour < b.hour ∨ a.hour = b.hour ∧ (a.minute < b.minute ∨ a.minute = b.minute ∧ a.second < b.second)) := by
      unfold Before at h; omega
    obtain ⟨e1, e2, e3, h⟩ := hs
    obtain ⟨_, _, _, _, _, a1, a2, a3⟩ := ha
    obtain ⟨_, _, _, _, _, b1, b2, b3⟩ := hb
    have hn : a.dayNumber = b.dayNumber := by unfold dayNumber; rw [e1, e2, e3]
    unfold seconds
    rw [hn]
    omega

theorem before_cases (a b : CivilTime) : a.Before b ∨ a = b ∨ b.Before a := by
  by_cases h : a.Before b
  · exact .inl h
  · by_cases h' : b.Before a
    · exact .inr (.inr h')
    · refine .inr (.inl ?_)
      unfold Before at h h'
      have h1 : a.year = b.year ∧ a.month = b.month ∧ a.day = b.day ∧ a.hour = b.hour ∧ a.minute = b.minute ∧
        a.second = b.second := by omega
      obtain ⟨h1, h2, h3, h4, h5, h6⟩ := h1
      cases a; cases b; simp_all

theorem seconds_lt_iff {a b : CivilTime} (ha : a.Valid) (hb : b.Valid) : a.seconds < b.seconds ↔ a.Before b := by
  refine ⟨fun h => ?_, seconds_lt ha hb⟩
  rcases before_cases a b with h' | rfl | h'
  · exact h'
  · omega
  · have := seconds_lt hb ha h'; omega

theorem seconds_inj {a b : CivilTime} (ha : a.Valid) (hb : b.Valid) (h : a.seconds = b.seconds) : a = b := by
  rcases before_cases a b with h' | rfl | h'
  · have := seconds_lt ha hb h'; omega
  · rfl
  · have := seconds_lt hb ha h'; omega

end CivilTime

namespace DateText

open CivilTime JsonText

theorem digit_toNat (n : Nat) : (digit n).toNat = 48 + n % 10 := toNat_ofNat (by omega)

theorem digit_isDigit (n : Nat) : isDigit (digit n) = true := by
  simp only [isDigit, digit_toNat, Bool.and_eq_true, decide_eq_true_eq]; omega

theorem digits_two {n : Nat} (h : n < 100) : digits (two n) = some n := by
  unfold digits two
  rw [if_pos (by simp [digit_isDigit])]
  simp only [digitsValue, List.foldl_cons, List.foldl_nil, digit_toNat, Option.some.injEq]
  omega

theorem digits_four {n : Nat} (h : n < 10000) : digits (four n) = some n := by
  unfold digits four
  rw [if_pos (by simp [digit_isDigit])]
  simp only [digitsValue, List.foldl_cons, List.foldl_nil, digit_toNat, Option.some.injEq]
  omega

theorem monthLength_le (y m : Nat) : monthLength y m ≤ 31 := by
  unfold monthLength
  split
  · split <;> omega
  · have : ∀ m < 13, [0, 31, 0, 31, 30, 31, 30, 31, 31, 30, 31, 30, 31].getD m 0 ≤ 31 := by decide
    by_cases hm : m < 13
    · exact this m hm
    · rw [List.getD_eq_getElem?_getD, List.getElem?_eq_none (by simp; omega)]; simp

theorem stamp_read {c : CivilTime} (h : c.Valid) (r : List Char) : stamp? (c.stamp ++ r) = some (c, r) := by
  have hv := h
  obtain ⟨h1, h2, h3, h4, h5, h6, h7, h8⟩ := h
  have := monthLength_le c.year c.month
  have e1 := digits_four h1
  have e2 := digits_two (n := c.month) (by omega)
  have e3 := digits_two (n := c.day) (by omega)
  have e4 := digits_two (n := c.hour) (by omega)
  have e5 := digits_two (n := c.minute) (by omega)
  have e6 := digits_two (n := c.second) (by omega)
  simp only [four, two] at e1 e2 e3 e4 e5 e6
  simp only [CivilTime.stamp, four, two, List.cons_append, List.nil_append, stamp?, e1, e2, e3, e4, e5, e6,
    Option.bind_eq_bind, Option.bind_some]
  rw [if_pos hv]

theorem toList_ofList (l : List Char) : (String.ofList l).toList = l := by simp

theorem readDate_text {c : CivilTime} (h : c.Valid) : readDate c.text = some (c.seconds * 1000) := by
  unfold readDate CivilTime.text
  rw [toList_ofList, stamp_read h]
  rfl

theorem readTime_text {c : CivilTime} {f : List Char} (h : c.Valid) (hf : Spelling.Fraction f) :
    readTime (c.reportText f ++ "+0000") = some c.seconds := by
  have e : (c.reportText f ++ "+0000").toList = c.stamp ++ (f ++ ['+', '0', '0', '0', '0']) := by
    simp [CivilTime.reportText]
  unfold readTime
  rw [e, stamp_read h]
  simp only
  rw [fraction_of hf (by simp; decide)]
  rfl

end DateText

end Verif
