import Verif.Proofs.Inversion
import Verif.Model.SgxVerify

/-!
# PEM handling: lengths
-/

namespace Verif

theorem utf8LossyAux_length (n : Nat) (b : Bytes) : (utf8LossyAux n b).length ≤ b.length := by
  induction n using Nat.strongRecOn generalizing b with
  | _ n ih =>
    cases n with
    | zero => simp [utf8LossyAux]
    | succ n =>
      have ih' := ih n (by omega)
      cases b with
      | nil => simp [utf8LossyAux]
      | cons b0 r0 =>
        unfold utf8LossyAux
        repeat' split
        all_goals exact Nat.le_trans (Nat.succ_le_succ (ih' _)) (by simp only [List.length_cons]; omega)

theorem utf8Lossy_length (b : Bytes) : (utf8Lossy b).length ≤ b.length := utf8LossyAux_length _ _

theorem splitAux_ne_nil (pat s : List Nat) (skip : Nat) (cur : List Nat) : splitAux pat s skip cur ≠ [] := by
  induction s generalizing skip cur with
  | nil => simp [splitAux]
  | cons c cs ih =>
    cases skip with
    | succ k => simp only [splitAux]; exact ih _ _
    | zero => simp only [splitAux]; split <;> simp [ih]

theorem splitAux_length {pat : List Nat} (hp : pat ≠ []) (s : List Nat) (skip : Nat) (cur : List Nat)
    (hs : skip ≤ s.length) :
    ((splitAux pat s skip cur).map List.length).sum + pat.length * ((splitAux pat s skip cur).length - 1) ≤
      cur.length + (s.length - skip) := by
  induction s generalizing skip cur with
  | nil => simp [splitAux]
  | cons c cs ih =>
    cases skip with
    | succ k =>
      simp only [splitAux, List.length_cons] at *
      have := ih k cur (by omega)
      omega
    | zero =>
      simp only [splitAux]
      split
      · rename_i h
        have hl := (List.isPrefixOf_iff_prefix.mp h).length_le
        have hpl : 0 < pat.length := List.length_pos_iff.mpr hp
        simp only [List.length_cons] at hl
        have := ih (pat.length - 1) [] (by omega)
        have hne := List.length_pos_iff.mpr (splitAux_ne_nil pat cs (pat.length - 1) [])
        generalize splitAux pat cs (pat.length - 1) [] = P at *
        simp only [List.map_cons, List.sum_cons, List.length_cons, List.length_reverse, List.length_nil] at *
        obtain ⟨m, hm⟩ : ∃ m, P.length = m + 1 := ⟨P.length - 1, by omega⟩
        simp only [hm, Nat.add_sub_cancel, Nat.mul_add, Nat.mul_one] at *
        omega
      · have := ih 0 (c :: cur) (by omega)
        simp only [List.length_cons] at *
        omega

theorem removeStr_length {pat : List Nat} (hp : pat ≠ []) (s : List Nat) : (removeStr pat s).length ≤ s.length := by
  have := splitAux_length hp s 0 [] (by omega)
  simp only [removeStr, splitStr, List.length_flatten, List.length_nil] at *
  omega

theorem sum_ge_two {l : List (List Nat)} (h : 2 ≤ (l.filter fun p => !p.isEmpty).length) :
    2 ≤ (l.map List.length).sum := by
  have key : ∀ l : List (List Nat), (l.filter fun p => !p.isEmpty).length ≤ (l.map List.length).sum := by
    intro l
    induction l with
    | nil => simp
    | cons p l ih =>
      cases p <;> simp_all
      omega
  exact Nat.le_trans h (key l)

theorem pemEnd_length : pemEnd.length = 25 := by decide
theorem pemBegin_length : pemBegin.length = 27 := by decide
theorem pemEnd_ne : pemEnd ≠ [] := by decide
theorem pemBegin_ne : pemBegin ≠ [] := by decide

/-- Two certificates need at least one end marker and two characters. -/
theorem extractCerts_two {x : Ext} {d : Bytes} (h : 2 ≤ (extractCerts x d).length) : 27 ≤ d.length := by
  unfold extractCerts at h
  have h1 := Nat.le_trans h (List.length_filterMap_le _ _)
  have h2 := sum_ge_two h1
  have h3 := Nat.le_trans h1 (List.length_filter_le _ _)
  have h4 := splitAux_length pemEnd_ne (removeStr pemBegin (removeStr [10] (utf8Lossy d))) 0 [] (by omega)
  have h5 := removeStr_length pemBegin_ne (removeStr [10] (utf8Lossy d))
  have h6 := removeStr_length (pat := [10]) (by simp) (utf8Lossy d)
  have h7 := utf8Lossy_length d
  rw [pemEnd_length] at h4
  simp only [splitStr, List.length_nil] at *
  omega

end Verif
