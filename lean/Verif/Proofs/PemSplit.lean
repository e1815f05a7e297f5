import Verif.Spec.Der
import Verif.Proofs.Pem

/-!
# PEM handling: what is extracted from a list of armoured certificates
-/

namespace Verif

/-- Text without the first character of the pattern is copied to the current part. -/
theorem splitAux_copy {p : Nat} {ps : List Nat} (u v cur : List Nat) (h : ∀ c ∈ u, c ≠ p) :
    splitAux (p :: ps) (u ++ v) 0 cur = splitAux (p :: ps) v 0 (u.reverse ++ cur) := by
  induction u generalizing cur with
  | nil => rfl
  | cons c u ih =>
    simp only [List.mem_cons, forall_eq_or_imp] at h
    have hc : (p == c) = false := by simpa using fun e => h.1 e.symm
    simp only [List.cons_append, splitAux, List.isPrefixOf, hc, Bool.false_and, Bool.false_eq_true, if_false]
    rw [ih _ h.2]
    simp

theorem splitAux_skip (pat u v cur : List Nat) : splitAux pat (u ++ v) u.length cur = splitAux pat v 0 cur := by
  induction u with
  | nil => rfl
  | cons c u ih => simp only [List.cons_append, List.length_cons, splitAux]; exact ih

/-- At the pattern the current part ends. -/
theorem splitAux_match {p : Nat} {ps : List Nat} (v cur : List Nat) :
    splitAux (p :: ps) ((p :: ps) ++ v) 0 cur = cur.reverse :: splitAux (p :: ps) v 0 [] := by
  have h : (p :: ps).isPrefixOf ((p :: ps) ++ v) = true := List.isPrefixOf_iff_prefix.mpr (List.prefix_append _ _)
  simp only [List.cons_append] at h ⊢
  simp only [splitAux, h, if_true, List.length_cons, Nat.add_sub_cancel]
  rw [splitAux_skip]

theorem splitAux_end (pat cur : List Nat) : splitAux pat [] 0 cur = [cur.reverse] := rfl

/-- Removing one character is filtering. -/
theorem removeStr_single (c : Nat) (s : List Nat) : removeStr [c] s = s.filter (· ≠ c) := by
  have key : ∀ cur, (splitAux [c] s 0 cur).flatten = cur.reverse ++ s.filter (· ≠ c) := by
    induction s with
    | nil => intro cur; simp [splitAux]
    | cons x s ih =>
      intro cur
      by_cases h : x = c
      · subst h
        simp [splitAux, ih]
      · have h' : ¬ c = x := fun e => h e.symm
        simp [splitAux, h', ih, h]
  exact key []

/-- ASCII text is valid UTF-8. -/
theorem utf8Lossy_ascii (b : Bytes) (h : ∀ c ∈ b, c < 128) : utf8Lossy b = b.map UInt8.toNat := by
  have key : ∀ n, b.length ≤ n → utf8LossyAux n b = b.map UInt8.toNat := by
    induction b with
    | nil => intro n _; cases n <;> simp [utf8LossyAux]
    | cons c b ih =>
      intro n hn
      simp only [List.mem_cons, forall_eq_or_imp] at h
      cases n with
      | zero => simp at hn
      | succ n =>
        have hc : c < 0x80 := h.1
        simp only [utf8LossyAux, hc, if_true, List.map_cons]
        rw [ih h.2 n (by simpa using hn)]
  exact key _ (Nat.le_refl _)

/-- The five dashes at the end of the end marker do not combine with what follows to a begin marker. -/
theorem begin_after_end_begin (v cur : List Nat) :
    splitAux pemBegin (pemEnd ++ (pemBegin ++ v)) 0 cur = splitAux pemBegin (pemBegin ++ v) 0 (pemEnd.reverse ++ cur) := by
  rfl

theorem begin_after_end_tail (v cur : List Nat) (h : ∀ c ∈ v, c ≠ 45) :
    splitAux pemBegin (pemEnd ++ v) 0 cur = splitAux pemBegin v 0 (pemEnd.reverse ++ cur) := by
  have e : pemEnd = cps "-----END CERTIFICATE" ++ [45, 45, 45, 45, 45] := by decide
  have h1 : splitAux pemBegin (pemEnd ++ v) 0 cur =
      splitAux pemBegin ([45, 45, 45, 45, 45] ++ v) 0 ((cps "-----END CERTIFICATE").reverse ++ cur) := by rfl
  rw [h1]
  have key : ∀ k cur, k ≤ 5 → splitAux pemBegin (List.replicate k 45 ++ v) 0 cur =
      splitAux pemBegin v 0 (List.replicate k 45 ++ cur) := by
    intro k
    induction k with
    | zero => intro cur _; rfl
    | succ k ih =>
      intro cur hk
      have hno : pemBegin.isPrefixOf (45 :: (List.replicate k 45 ++ v)) = false := by
        cases hh : pemBegin.isPrefixOf (45 :: (List.replicate k 45 ++ v)) with
        | false => rfl
        | true =>
          exfalso
          obtain ⟨t, ht⟩ := List.isPrefixOf_iff_prefix.mp hh
          have h26 : (pemBegin ++ t)[26]? = some 45 := by rfl
          rw [ht, ← List.cons_append, ← List.replicate_succ, List.getElem?_append_right (by simp; omega)] at h26
          exact h 45 (List.mem_of_getElem? h26) rfl
      rw [List.replicate_succ, List.cons_append, splitAux, hno]
      simp only [Bool.false_eq_true, if_false]
      rw [ih _ (by omega)]
      congr 1
      rw [← List.singleton_append (l := cur), ← List.append_assoc, ← List.replicate_succ', List.replicate_succ]
  have := key 5 ((cps "-----END CERTIFICATE").reverse ++ cur) (by omega)
  rw [show List.replicate 5 45 = [45, 45, 45, 45, 45] from rfl] at this
  rw [this, e]
  simp

/-- The text after removal of line breaks. -/
def joined : List (List Nat) → List Nat → List Nat
  | [], tail => tail
  | b :: bs, tail => pemBegin ++ b ++ pemEnd ++ joined bs tail

/-- The text after removal of begin markers. -/
def stripped : List (List Nat) → List Nat → List Nat
  | [], tail => tail
  | b :: bs, tail => b ++ pemEnd ++ stripped bs tail

theorem pemBegin_cons : pemBegin = 45 :: pemBegin.tail := by decide
theorem pemEnd_cons : pemEnd = 45 :: pemEnd.tail := by decide

theorem begin_copy (u v cur : List Nat) (h : ∀ c ∈ u, c ≠ 45) :
    splitAux pemBegin (u ++ v) 0 cur = splitAux pemBegin v 0 (u.reverse ++ cur) := by
  rw [pemBegin_cons]; exact splitAux_copy u v cur h

theorem end_copy (u v cur : List Nat) (h : ∀ c ∈ u, c ≠ 45) :
    splitAux pemEnd (u ++ v) 0 cur = splitAux pemEnd v 0 (u.reverse ++ cur) := by
  rw [pemEnd_cons]; exact splitAux_copy u v cur h

theorem begin_match (v cur : List Nat) : splitAux pemBegin (pemBegin ++ v) 0 cur = cur.reverse :: splitAux pemBegin v 0 [] := by
  rw [pemBegin_cons]; exact splitAux_match v cur

theorem end_match (v cur : List Nat) : splitAux pemEnd (pemEnd ++ v) 0 cur = cur.reverse :: splitAux pemEnd v 0 [] := by
  rw [pemEnd_cons]; exact splitAux_match v cur

theorem begin_after_end (bs : List (List Nat)) (tail cur : List Nat) (ht : ∀ c ∈ tail, c ≠ 45) :
    splitAux pemBegin (pemEnd ++ joined bs tail) 0 cur = splitAux pemBegin (joined bs tail) 0 (pemEnd.reverse ++ cur) := by
  cases bs with
  | nil => exact begin_after_end_tail tail cur ht
  | cons b bs =>
    simp only [joined, List.append_assoc]
    exact begin_after_end_begin _ _

theorem removeStr_begin (bs : List (List Nat)) (tail : List Nat) (hb : ∀ b ∈ bs, ∀ c ∈ b, c ≠ 45)
    (ht : ∀ c ∈ tail, c ≠ 45) : removeStr pemBegin (joined bs tail) = stripped bs tail := by
  have key : ∀ cur, (splitAux pemBegin (joined bs tail) 0 cur).flatten = cur.reverse ++ stripped bs tail := by
    induction bs with
    | nil =>
      intro cur
      have := begin_copy tail [] cur ht
      rw [List.append_nil] at this
      simp only [joined, stripped]
      rw [this, splitAux_end]
      simp
    | cons b bs ih =>
      intro cur
      simp only [List.mem_cons, forall_eq_or_imp] at hb
      simp only [joined, stripped, List.append_assoc]
      rw [begin_match, List.flatten_cons, begin_copy _ _ _ hb.1, begin_after_end _ _ _ ht, ih hb.2]
      simp
  exact key []

theorem split_end (bs : List (List Nat)) (tail : List Nat) (hb : ∀ b ∈ bs, ∀ c ∈ b, c ≠ 45)
    (ht : ∀ c ∈ tail, c ≠ 45) : splitStr pemEnd (stripped bs tail) = bs ++ [tail] := by
  unfold splitStr
  induction bs with
  | nil =>
    have := end_copy tail [] [] ht
    rw [List.append_nil] at this
    simp only [stripped, List.nil_append]
    rw [this, splitAux_end]
    simp
  | cons b bs ih =>
    simp only [List.mem_cons, forall_eq_or_imp] at hb
    simp only [stripped, List.append_assoc]
    rw [end_copy _ _ _ hb.1, end_match, ih hb.2]
    simp

theorem ascii_begin : (Der.ascii "-----BEGIN CERTIFICATE-----\n").map UInt8.toNat = pemBegin ++ [10] := by decide
theorem ascii_end : (Der.ascii "\n-----END CERTIFICATE-----\n").map UInt8.toNat = 10 :: pemEnd ++ [10] := by decide
theorem filter_begin : pemBegin.filter (· ≠ 10) = pemBegin := by decide
theorem filter_end : pemEnd.filter (· ≠ 10) = pemEnd := by decide

/-- Removing line breaks from the armoured list. -/
theorem armour_joined (bodies : List Bytes) (tail : Bytes) :
    ((bodies.flatMap Der.armour ++ tail).map UInt8.toNat).filter (· ≠ 10) =
      joined (bodies.map fun b => (Der.joinLines b).map UInt8.toNat) ((Der.joinLines tail).map UInt8.toNat) := by
  have hj : ∀ b : Bytes, (b.map UInt8.toNat).filter (· ≠ 10) = (Der.joinLines b).map UInt8.toNat := by
    intro b
    rw [List.filter_map, Der.joinLines]
    congr 1
    apply List.filter_congr
    intro c _
    simp only [Function.comp, decide_eq_decide, ne_eq]
    rw [← UInt8.toNat_inj]
    rfl
  induction bodies with
  | nil => exact hj tail
  | cons b bs ih =>
    rw [List.flatMap_cons, List.append_assoc, List.map_append, List.filter_append, ih]
    simp only [List.map_cons, joined, Der.armour, List.map_append, List.filter_append, ascii_begin, ascii_end, hj]
    simp only [List.filter_append, List.cons_append, filter_begin, filter_end,
      show List.filter (fun x => decide (x ≠ 10)) [10] = [] from rfl, List.append_nil]
    rw [List.filter_cons_of_neg (by simp), filter_end]

/-! ### With text before the begin markers -/

/-- What follows an end marker does not make a begin marker of its dashes, if it starts with another character than a dash
or the letter B. -/
theorem begin_after_end_other (v cur : List Nat) (h : v.head? ≠ some 45 ∧ v.head? ≠ some 66) :
    splitAux pemBegin (pemEnd ++ v) 0 cur = splitAux pemBegin v 0 (pemEnd.reverse ++ cur) := by
  have e : pemEnd = cps "-----END CERTIFICATE" ++ [45, 45, 45, 45, 45] := by decide
  have h1 : splitAux pemBegin (pemEnd ++ v) 0 cur =
      splitAux pemBegin ([45, 45, 45, 45, 45] ++ v) 0 ((cps "-----END CERTIFICATE").reverse ++ cur) := by rfl
  rw [h1]
  have key : ∀ k cur, k ≤ 5 → splitAux pemBegin (List.replicate k 45 ++ v) 0 cur =
      splitAux pemBegin v 0 (List.replicate k 45 ++ cur) := by
    intro k
    induction k with
    | zero => intro cur _; rfl
    | succ k ih =>
      intro cur hk
      have hno : pemBegin.isPrefixOf (45 :: (List.replicate k 45 ++ v)) = false := by
        cases hh : pemBegin.isPrefixOf (45 :: (List.replicate k 45 ++ v)) with
        | false => rfl
        | true =>
          exfalso
          obtain ⟨t, ht⟩ := List.isPrefixOf_iff_prefix.mp hh
          have hk' : (pemBegin ++ t)[k + 1]? = some 45 ∨ (pemBegin ++ t)[k + 1]? = some 66 := by
            have : k = 0 ∨ k = 1 ∨ k = 2 ∨ k = 3 ∨ k = 4 := by omega
            rcases this with rfl | rfl | rfl | rfl | rfl
            · left; rfl
            · left; rfl
            · left; rfl
            · left; rfl
            · right; rfl
          rw [ht, ← List.cons_append, ← List.replicate_succ, List.getElem?_append_right (by simp)] at hk'
          simp only [List.length_replicate, Nat.sub_self, ← List.head?_eq_getElem?] at hk'
          rcases hk' with hk' | hk'
          · exact h.1 hk'
          · exact h.2 hk'
      rw [List.replicate_succ, List.cons_append, splitAux, hno]
      simp only [Bool.false_eq_true, if_false]
      rw [ih _ (by omega)]
      congr 1
      rw [← List.singleton_append (l := cur), ← List.append_assoc, ← List.replicate_succ', List.replicate_succ]
  have := key 5 ((cps "-----END CERTIFICATE").reverse ++ cur) (by omega)
  rw [show List.replicate 5 45 = [45, 45, 45, 45, 45] from rfl] at this
  rw [this, e]
  simp

/-- Certificates with other text before each begin marker, after removal of line breaks. -/
def joinedGaps : List (List Nat × List Nat) → List Nat → List Nat
  | [], tail => tail
  | (g, b) :: bs, tail => g ++ (pemBegin ++ (b ++ (pemEnd ++ joinedGaps bs tail)))

/-- Text that may stand before a begin marker without confusing the search for markers. -/
def Gap (g : List Nat) : Prop := (∀ c ∈ g, c ≠ 45) ∧ g.head? ≠ some 66

theorem begin_after_end_gaps (bs : List (List Nat × List Nat)) (tail cur : List Nat) (hb : ∀ p ∈ bs, Gap p.1) (ht : Gap tail) :
    splitAux pemBegin (pemEnd ++ joinedGaps bs tail) 0 cur = splitAux pemBegin (joinedGaps bs tail) 0 (pemEnd.reverse ++ cur) := by
  have hd : ∀ g : List Nat, Gap g → g.head? ≠ some 45 := by
    intro g hg h
    cases g with
    | nil => simp at h
    | cons c g => simp only [List.head?_cons, Option.some.injEq] at h; exact hg.1 c (by simp) h
  cases bs with
  | nil => exact begin_after_end_other tail cur ⟨hd _ ht, ht.2⟩
  | cons p bs =>
    obtain ⟨g, b⟩ := p
    have hg : Gap g := hb (g, b) (by simp)
    cases g with
    | nil =>
      simp only [joinedGaps, List.nil_append]
      exact begin_after_end_begin _ _
    | cons c g =>
      simp only [joinedGaps]
      refine begin_after_end_other _ cur ⟨?_, ?_⟩
      · simpa using hd _ hg
      · simpa using hg.2

theorem removeStr_gaps (bs : List (List Nat × List Nat)) (tail : List Nat) (hb : ∀ p ∈ bs, Gap p.1 ∧ ∀ c ∈ p.2, c ≠ 45)
    (ht : Gap tail) : removeStr pemBegin (joinedGaps bs tail) = stripped (bs.map fun p => p.1 ++ p.2) tail := by
  have key : ∀ cur, (splitAux pemBegin (joinedGaps bs tail) 0 cur).flatten =
      cur.reverse ++ stripped (bs.map fun p => p.1 ++ p.2) tail := by
    induction bs with
    | nil =>
      intro cur
      have := begin_copy tail [] cur ht.1
      rw [List.append_nil] at this
      simp only [joinedGaps, List.map_nil, stripped]
      rw [this, splitAux_end]
      simp
    | cons p bs ih =>
      obtain ⟨g, b⟩ := p
      intro cur
      simp only [List.mem_cons, forall_eq_or_imp] at hb
      simp only [joinedGaps, List.map_cons, stripped, List.append_assoc]
      rw [begin_copy _ _ _ hb.1.1.1, begin_match, List.flatten_cons, begin_copy _ _ _ hb.1.2,
        begin_after_end_gaps _ _ _ (fun p hp => (hb.2 p hp).1) ht, ih hb.2]
      simp
  exact key []

/-- What is extracted from certificates with other text before their begin markers: that text counts as part of them. -/
theorem extractCerts_gaps (x : Ext) (chain : Bytes) (bs : List (List Nat × List Nat)) (tail : List Nat) (ha : ∀ c ∈ chain, c < 128)
    (he : (chain.map UInt8.toNat).filter (· ≠ 10) = joinedGaps bs tail) (hb : ∀ p ∈ bs, Gap p.1 ∧ ∀ c ∈ p.2, c ≠ 45) (ht : Gap tail) :
    extractCerts x chain = (((bs.map fun p => p.1 ++ p.2) ++ [tail]).filter fun p => !p.isEmpty).filterMap (base64Str x) := by
  unfold extractCerts
  simp only
  rw [utf8Lossy_ascii _ ha, removeStr_single, he, removeStr_gaps bs tail hb ht, split_end]
  · intro b hbm
    obtain ⟨p, hp, rfl⟩ := List.mem_map.mp hbm
    intro c hc
    rcases List.mem_append.mp hc with hc | hc
    · exact (hb p hp).1.1 c hc
    · exact (hb p hp).2 c hc
  · exact ht.1

end Verif
