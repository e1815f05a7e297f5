import Verif.Proofs.Utf8

/-!
# The JSON reader reads exactly the grammar
-/

namespace Verif

namespace JsonText

open Spelling

/-! ### White space and digits -/

theorem isWs_iff {c : Char} : isWs c = true ↔ c ∈ [' ', '\n', '\t', '\r'] := by
  simp [isWs, or_assoc]

theorem isDigit_iff {c : Char} : isDigit c = true ↔ c ∈ "0123456789".toList := by
  have h : "0123456789".toList = ['0', '1', '2', '3', '4', '5', '6', '7', '8', '9'] := by decide +kernel
  rw [h]
  simp only [isDigit, Bool.and_eq_true, decide_eq_true_eq, List.mem_cons, List.not_mem_nil, or_false]
  constructor
  · rintro ⟨h1, h2⟩
    have h3 : c.toNat = 48 ∨ c.toNat = 49 ∨ c.toNat = 50 ∨ c.toNat = 51 ∨ c.toNat = 52 ∨ c.toNat = 53 ∨ c.toNat = 54 ∨
      c.toNat = 55 ∨ c.toNat = 56 ∨ c.toNat = 57 := by omega
    rcases h3 with h | h | h | h | h | h | h | h | h | h
    · exact .inl (char_eq h)
    · exact .inr (.inl (char_eq h))
    · exact .inr (.inr (.inl (char_eq h)))
    · exact .inr (.inr (.inr (.inl (char_eq h))))
    · exact .inr (.inr (.inr (.inr (.inl (char_eq h)))))
    · exact .inr (.inr (.inr (.inr (.inr (.inl (char_eq h))))))
    · exact .inr (.inr (.inr (.inr (.inr (.inr (.inl (char_eq h)))))))
    · exact .inr (.inr (.inr (.inr (.inr (.inr (.inr (.inl (char_eq h))))))))
    · exact .inr (.inr (.inr (.inr (.inr (.inr (.inr (.inr (.inl (char_eq h)))))))))
    · exact .inr (.inr (.inr (.inr (.inr (.inr (.inr (.inr (.inr (char_eq h)))))))))
  · rintro (rfl | rfl | rfl | rfl | rfl | rfl | rfl | rfl | rfl | rfl) <;> decide

theorem mem_takeWhile_imp {p : Char → Bool} {t : List Char} {c : Char} (h : c ∈ t.takeWhile p) : p c = true := by
  induction t with
  | nil => simp at h
  | cons a t ih =>
    rw [List.takeWhile_cons] at h
    split at h
    · rename_i ha
      rcases List.mem_cons.mp h with rfl | h
      · exact ha
      · exact ih h
    · simp at h

/-- Splits a text into the longest start with a property and the rest. -/
theorem span_split (p : Char → Bool) (t : List Char) :
    t = t.takeWhile p ++ t.dropWhile p ∧ (∀ c ∈ t.takeWhile p, p c = true) ∧
      ∀ c ∈ (t.dropWhile p).head?, p c = false := by
  refine ⟨List.takeWhile_append_dropWhile.symm, fun c hc => mem_takeWhile_imp hc, fun c hc => ?_⟩
  have := List.head?_dropWhile_not p t
  rw [hc] at this
  simpa using this

theorem span_append {p : Char → Bool} {u r : List Char} (hu : ∀ c ∈ u, p c = true) (hr : ∀ c ∈ r.head?, p c = false) :
    (u ++ r).takeWhile p = u ∧ (u ++ r).dropWhile p = r := by
  induction u with
  | nil =>
    cases r with
    | nil => simp
    | cons c r =>
      have := hr c rfl
      simp [this]
  | cons c u ih =>
    obtain ⟨h1, h2⟩ := ih fun c hc => hu c (by simp [hc])
    have := hu c (by simp)
    simp [this, h1, h2]

theorem skipWs_split (t : List Char) : ∃ w, Ws w ∧ t = w ++ skipWs t := by
  obtain ⟨h1, h2, _⟩ := span_split isWs t
  exact ⟨_, fun c hc => isWs_iff.mp (h2 c hc), h1⟩

theorem skipWs_append {w r : List Char} (hw : Ws w) (hr : ∀ c ∈ r.head?, isWs c = false) : skipWs (w ++ r) = r :=
  (span_append (fun c hc => isWs_iff.mpr (hw c hc)) hr).2

theorem skipWs_all {w : List Char} (hw : Ws w) : skipWs w = [] := by
  have := skipWs_append (r := []) hw (by simp)
  simpa using this

theorem skipWs_nil {t : List Char} (h : skipWs t = []) : Ws t := by
  obtain ⟨w, hw, e⟩ := skipWs_split t
  rw [h, List.append_nil] at e
  rw [e]; exact hw

/-! ### Strings -/

theorem hexDigit_iff {c : Char} {n : Nat} : hexDigit c = some n ↔ HexDigit c n := by
  have hl : "0123456789abcdef".toList = ['0', '1', '2', '3', '4', '5', '6', '7', '8', '9', 'a', 'b', 'c', 'd', 'e', 'f'] := by
    decide +kernel
  have hu : "0123456789ABCDEF".toList = ['0', '1', '2', '3', '4', '5', '6', '7', '8', '9', 'A', 'B', 'C', 'D', 'E', 'F'] := by
    decide +kernel
  constructor
  · intro h
    unfold hexDigit at h
    split at h
    · rename_i hb
      simp only [Option.some.injEq] at h
      subst h
      have key : ∀ k < 10, "0123456789abcdef".toList[k]? = some (Char.ofNat (k + 48)) := by decide +kernel
      refine .lower _ _ ?_
      rw [key _ (by omega)]
      refine congrArg some (char_eq ?_)
      rw [toNat_ofNat (by omega)]; omega
    split at h
    · rename_i hb
      simp only [Option.some.injEq] at h
      subst h
      have key : ∀ k < 6, "0123456789abcdef".toList[k + 10]? = some (Char.ofNat (k + 97)) := by decide +kernel
      have e : c.toNat - 87 = (c.toNat - 97) + 10 := by omega
      refine .lower _ _ ?_
      rw [e, key _ (by omega)]
      refine congrArg some (char_eq ?_)
      rw [toNat_ofNat (by omega)]; omega
    split at h
    · rename_i hb
      simp only [Option.some.injEq] at h
      subst h
      have key : ∀ k < 6, "0123456789ABCDEF".toList[k + 10]? = some (Char.ofNat (k + 65)) := by decide +kernel
      have e : c.toNat - 55 = (c.toNat - 65) + 10 := by omega
      refine .upper _ _ ?_
      rw [e, key _ (by omega)]
      refine congrArg some (char_eq ?_)
      rw [toNat_ofNat (by omega)]; omega
    · cases h
  · rintro (⟨n, c, h⟩ | ⟨n, c, h⟩)
    all_goals
      have hn : n < 16 := by
        obtain ⟨hn, _⟩ := List.getElem?_eq_some_iff.mp h
        simpa [hl, hu] using hn
    · have key : ∀ k < 16, ("0123456789abcdef".toList[k]?).bind hexDigit = some k := by decide +kernel
      have := key n hn
      rwa [h] at this
    · have key : ∀ k < 16, ("0123456789ABCDEF".toList[k]?).bind hexDigit = some k := by decide +kernel
      have := key n hn
      rwa [h] at this

theorem hex4_some {t r : List Char} {n : Nat} (h : hex4 t = some (n, r)) : ∃ u, t = u ++ r ∧ Hex4 u n := by
  unfold hex4 at h
  split at h
  · rename_i a b c d r'
    simp only [Option.bind_eq_bind, Option.bind_eq_some_iff, Option.some.injEq, Prod.mk.injEq] at h
    obtain ⟨i, hi, j, hj, k, hk, l, hl, rfl, rfl⟩ := h
    refine ⟨[a, b, c, d], rfl, ?_⟩
    have := Hex4.mk a b c d i j k l (hexDigit_iff.mp hi) (hexDigit_iff.mp hj) (hexDigit_iff.mp hk) (hexDigit_iff.mp hl)
    have e : ((i * 16 + j) * 16 + k) * 16 + l = i * 4096 + j * 256 + k * 16 + l := by omega
    rwa [e] at this
  · cases h

theorem hex4_of {u r : List Char} {n : Nat} (h : Hex4 u n) : hex4 (u ++ r) = some (n, r) := by
  cases h with
  | mk a b c d i j k l ha hb hc hd =>
    simp only [List.cons_append, List.nil_append, hex4, hexDigit_iff.mpr ha, hexDigit_iff.mpr hb, hexDigit_iff.mpr hc,
      hexDigit_iff.mpr hd, Option.bind_eq_bind, Option.bind_some, Option.some.injEq, Prod.mk.injEq, and_true]
    omega

theorem hexDigit_lt {c : Char} {n : Nat} (h : hexDigit c = some n) : n < 16 := by
  unfold hexDigit at h
  split at h
  · cases h; omega
  split at h
  · cases h; omega
  split at h
  · cases h; omega
  · cases h

theorem hex4_lt {u : List Char} {n : Nat} (h : Hex4 u n) : n < 65536 := by
  cases h with
  | mk a b c d i j k l ha hb hc hd =>
    have := hexDigit_lt (hexDigit_iff.mpr ha)
    have := hexDigit_lt (hexDigit_iff.mpr hb)
    have := hexDigit_lt (hexDigit_iff.mpr hc)
    have := hexDigit_lt (hexDigit_iff.mpr hd)
    omega

theorem escape_some {t r : List Char} {c : Char} (h : escape t = some (c, r)) :
    ∃ u, '\\' :: t = u ++ r ∧ IsChar c true u := by
  unfold escape at h
  split at h
  case h_9 r' =>
    simp only [Option.bind_eq_bind, Option.bind_eq_some_iff, Prod.exists] at h
    obtain ⟨n, r1, h1, h⟩ := h
    obtain ⟨u, rfl, hu⟩ := hex4_some h1
    have hlt := hex4_lt hu
    split at h
    · cases h
      rename_i hn
      refine ⟨'\\' :: 'u' :: u, by simp, .unit _ _ ?_⟩
      rw [toNat_ofNat (by omega)]; exact hu
    split at h
    · split at h
      · rename_i h2 h3 _ r2
        simp only [Option.bind_eq_some_iff, Prod.exists] at h
        obtain ⟨m, r3, h4, h⟩ := h
        obtain ⟨u2, rfl, hu2⟩ := hex4_some h4
        split at h
        · rename_i hm
          simp only [Option.some.injEq, Prod.mk.injEq] at h
          obtain ⟨rfl, rfl⟩ := h
          refine ⟨'\\' :: 'u' :: u ++ '\\' :: 'u' :: u2, by simp, .pair _ u u2 (n - 55296) (m - 56320) ?_ ?_ ?_ ?_ ?_⟩
          · have e : 0xd800 + (n - 55296) = n := by omega
            rw [e]; exact hu
          · have e : 0xdc00 + (m - 56320) = m := by omega
            rw [e]; exact hu2
          · omega
          · omega
          · rw [toNat_ofNat (by omega)]
        · cases h
      · cases h
    · cases h
  case h_10 => cases h
  all_goals
    cases h
    exact ⟨_, rfl, .short _ _ (by decide +kernel)⟩

theorem escape_of {u r : List Char} {c : Char} (h : IsChar c true ('\\' :: u)) : escape (u ++ r) = some (c, r) := by
  cases h with
  | short k h =>
    simp only [shortEscapes, List.mem_cons, Prod.mk.injEq, List.not_mem_nil, or_false] at h
    rcases h with ⟨rfl, h⟩ | ⟨rfl, h⟩ | ⟨rfl, h⟩ | ⟨rfl, h⟩ | ⟨rfl, h⟩ | ⟨rfl, h⟩ | ⟨rfl, h⟩ | ⟨rfl, h⟩
    all_goals
      simp only [List.cons_append, List.nil_append, escape, Option.some.injEq, Prod.mk.injEq, and_true]
      exact char_eq h.symm
  | unit t h =>
    have hv := char_valid c
    simp only [List.cons_append, escape, hex4_of h, Option.bind_eq_bind, Option.bind_some]
    rw [if_pos (by omega), Char.ofNat_toNat]
  | pair t u hi lo h1 h2 b1 b2 h =>
    have e : ('u' :: t).append ('\\' :: 'u' :: u) ++ r = 'u' :: (t ++ '\\' :: 'u' :: (u ++ r)) := by
      show ('u' :: t ++ '\\' :: 'u' :: u) ++ r = _
      simp
    rw [e]
    simp only [escape, hex4_of h1, Option.bind_eq_bind, Option.bind_some]
    rw [if_neg (by omega), if_pos (by omega)]
    simp only [hex4_of h2, Option.bind_some]
    rw [if_pos (by omega)]
    refine congrArg (fun x => some (x, r)) (char_eq ?_)
    rw [h, toNat_ofNat (by omega)]
    omega

theorem chars_some {fuel : Nat} : ∀ {t r l : List Char} {e : Bool}, chars fuel t = some (l, e, r) →
    ∃ u, t = u ++ '"' :: r ∧ IsChars l e u := by
  induction fuel with
  | zero => intro t r l e h; simp [chars] at h
  | succ fuel ih =>
    intro t r l e h
    cases t with
    | nil => simp [chars] at h
    | cons c t =>
      simp only [chars] at h
      split at h
      · rename_i hc
        cases h
        exact ⟨[], by rw [hc]; rfl, .nil⟩
      split at h
      · rename_i hc
        simp only [Option.bind_eq_bind, Option.bind_eq_some_iff, Prod.exists, Option.some.injEq, Prod.mk.injEq] at h
        obtain ⟨x, r1, h1, l1, e1, r2, h2, rfl, rfl, rfl⟩ := h
        obtain ⟨u, hu, hx⟩ := escape_some h1
        obtain ⟨u2, rfl, hl⟩ := ih h2
        refine ⟨u ++ u2, by rw [hc, hu]; simp, ?_⟩
        exact .cons _ _ _ _ _ _ hx hl
      split at h
      · cases h
      · rename_i h1 h2 h3
        simp only [Option.bind_eq_bind, Option.bind_eq_some_iff, Prod.exists, Option.some.injEq, Prod.mk.injEq] at h
        obtain ⟨l1, e1, r2, h2, rfl, rfl, rfl⟩ := h
        obtain ⟨u2, rfl, hl⟩ := ih h2
        refine ⟨[c] ++ u2, by simp, ?_⟩
        have := IsChars.cons c false [c] l1 e1 u2 (.plain c h1 (by assumption) (by omega)) hl
        simpa using this

theorem isChar_start {c : Char} {e : Bool} {t : List Char} (h : IsChar c e t) :
    (e = false ∧ t = [c] ∧ c ≠ '"' ∧ c ≠ '\\' ∧ 32 ≤ c.toNat) ∨ (e = true ∧ ∃ u, t = '\\' :: u) := by
  cases h with
  | plain h1 h2 h3 => exact .inl ⟨rfl, rfl, h1, h2, h3⟩
  | short => exact .inr ⟨rfl, _, rfl⟩
  | unit => exact .inr ⟨rfl, _, rfl⟩
  | pair => exact .inr ⟨rfl, _, rfl⟩

theorem chars_of {l u : List Char} {e : Bool} (h : IsChars l e u) : ∀ {fuel : Nat} {r : List Char}, u.length < fuel →
    chars fuel (u ++ '"' :: r) = some (l, e, r) := by
  induction h with
  | nil =>
    intro fuel r hf
    cases fuel with
    | zero => simp at hf
    | succ fuel => simp [chars]
  | cons c e t l e' u hc hl ih =>
    intro fuel r hf
    cases fuel with
    | zero => simp at hf
    | succ fuel =>
      rcases isChar_start hc with ⟨rfl, rfl, h1, h2, h3⟩ | ⟨rfl, v, rfl⟩
      · have := ih (fuel := fuel) (r := r) (by simp at hf; omega)
        simp only [List.cons_append, List.nil_append, chars, if_neg h1, if_neg h2, this, Option.bind_eq_bind, Option.bind_some]
        rw [if_neg (by omega)]
        simp
      · have := ih (fuel := fuel) (r := r) (by simp at hf; omega)
        simp only [List.cons_append, List.append_assoc, chars]
        rw [if_neg (by decide), if_pos trivial, escape_of hc]
        simp [this]

theorem string_some {t r : List Char} {s : String} {e : Bool} (h : string t = some (s, e, r)) :
    ∃ l u, s = String.ofList l ∧ t = u ++ '"' :: r ∧ IsChars l e u := by
  simp only [string, Option.bind_eq_bind, Option.bind_eq_some_iff, Prod.exists, Option.some.injEq, Prod.mk.injEq] at h
  obtain ⟨l, e, r, h, rfl, rfl, rfl⟩ := h
  obtain ⟨u, hu, hl⟩ := chars_some h
  exact ⟨l, u, rfl, hu, hl⟩

theorem string_of {l u r : List Char} {e : Bool} (h : IsChars l e u) :
    string (u ++ '"' :: r) = some (String.ofList l, e, r) := by
  simp only [string, chars_of h (fuel := (u ++ '"' :: r).length) (r := r) (by simp), Option.bind_eq_bind, Option.bind_some]

/-! ### Numbers -/

theorem foldl_decimal (l : List Char) : ∀ n, l.foldl (fun n c => n * 10 + (c.toNat - 48)) n = n * 10 ^ l.length + decimal l := by
  induction l with
  | nil => intro n; simp [decimal]
  | cons c l ih =>
    intro n
    rw [List.foldl_cons, ih, decimal, List.length_cons, Nat.pow_succ, Nat.add_mul]
    have : '0'.toNat = 48 := rfl
    rw [this, Nat.mul_assoc, Nat.mul_comm 10, Nat.add_assoc]

theorem digitsValue_eq (l : List Char) : digitsValue l = decimal l := by
  rw [digitsValue, foldl_decimal]; simp

theorem digits_iff {t : List Char} : Digits t ↔ t ≠ [] ∧ ∀ c ∈ t, isDigit c = true := by
  unfold Digits
  simp only [isDigit_iff]

/-- What may follow a value without being read as part of it. -/
def Stop (r : List Char) : Prop := ∀ c ∈ r.head?, isDigit c = false ∧ c ≠ '.' ∧ c ≠ 'e' ∧ c ≠ 'E'

theorem digits_split {t : List Char} (h : ¬ (t.takeWhile isDigit).isEmpty = true) :
    Digits (t.takeWhile isDigit) ∧ t = t.takeWhile isDigit ++ t.dropWhile isDigit := by
  obtain ⟨h1, h2, _⟩ := span_split isDigit t
  refine ⟨digits_iff.mpr ⟨?_, h2⟩, h1⟩
  intro hn; exact h (by simp [hn])

theorem digits_append {u r : List Char} (h : Digits u) (hr : ∀ c ∈ r.head?, isDigit c = false) :
    (u ++ r).takeWhile isDigit = u ∧ (u ++ r).dropWhile isDigit = r ∧ ((u ++ r).takeWhile isDigit).isEmpty = false := by
  obtain ⟨h1, h2⟩ := span_append (digits_iff.mp h).2 hr
  refine ⟨h1, h2, ?_⟩
  rw [h1]
  have := h.1
  cases u with
  | nil => exact absurd rfl this
  | cons => rfl

theorem fraction_some {t r : List Char} {f : Bool} (h : fraction t = some (f, r)) :
    ∃ u, t = u ++ r ∧ Fraction u ∧ (f = true ↔ u ≠ []) := by
  unfold fraction at h
  split at h
  · rename_i r'
    split at h
    · cases h
    · rename_i hd
      cases h
      obtain ⟨h1, h2⟩ := digits_split hd
      exact ⟨'.' :: r'.takeWhile isDigit, congrArg _ h2, .inr ⟨_, h1, rfl⟩, by simp⟩
  · cases h
    exact ⟨[], rfl, .inl rfl, by simp⟩

theorem fraction_of {u r : List Char} (h : Fraction u) (hr : ∀ c ∈ r.head?, isDigit c = false ∧ c ≠ '.') :
    fraction (u ++ r) = some (!u.isEmpty, r) := by
  rcases h with rfl | ⟨ds, hd, rfl⟩
  · cases r with
    | nil => rfl
    | cons c r =>
      obtain ⟨_, h2⟩ := hr c rfl
      simp only [List.nil_append]
      unfold fraction
      split
      · rename_i e
        simp only [List.cons.injEq] at e
        exact absurd e.1 h2
      · rfl
  · obtain ⟨h1, h2, h3⟩ := digits_append hd fun c hc => (hr c hc).1
    simp [fraction, h2, h1, hd.1]

theorem exponent_some {t r : List Char} {f : Bool} (h : exponent t = some (f, r)) :
    ∃ u, t = u ++ r ∧ Exponent u ∧ (f = true ↔ u ≠ []) := by
  unfold exponent at h
  cases t with
  | nil => cases h; exact ⟨[], rfl, .inl rfl, by simp⟩
  | cons c t =>
    simp only at h
    split at h
    · rename_i hc
      cases t with
      | nil => cases h
      | cons s t =>
        simp only at h
        split at h
        · rename_i hs
          split at h
          · cases h
          · rename_i hd
            cases h
            obtain ⟨h1, h2⟩ := digits_split hd
            refine ⟨c :: [s] ++ t.takeWhile isDigit, ?_, .inr ⟨c, [s], _, hc, ?_, h1, rfl⟩, by simp⟩
            · exact congrArg (fun x => c :: s :: x) h2
            · rcases hs with rfl | rfl <;> simp
        · split at h
          · cases h
          · rename_i hd
            cases h
            obtain ⟨h1, h2⟩ := digits_split hd
            exact ⟨c :: [] ++ (s :: t).takeWhile isDigit, congrArg (c :: ·) h2, .inr ⟨c, [], _, hc, .inl rfl, h1, rfl⟩, by simp⟩
    · cases h
      exact ⟨[], rfl, .inl rfl, by simp⟩

theorem exponent_of {u r : List Char} (h : Exponent u) (hr : ∀ c ∈ r.head?, isDigit c = false ∧ c ≠ 'e' ∧ c ≠ 'E') :
    exponent (u ++ r) = some (!u.isEmpty, r) := by
  rcases h with rfl | ⟨e, sign, ds, he, hs, hd, rfl⟩
  · cases r with
    | nil => rfl
    | cons c r =>
      obtain ⟨_, h2, h3⟩ := hr c rfl
      simp [exponent, h2, h3]
  · obtain ⟨h1, h2, h3⟩ := digits_append hd fun c hc => (hr c hc).1
    rcases hs with rfl | rfl | rfl
    · cases ds with
      | nil => exact absurd rfl hd.1
      | cons s ds =>
        have hsd := (digits_iff.mp hd).2 s (by simp)
        have n1 : ¬ (s = '+' ∨ s = '-') := by rintro (rfl | rfl) <;> exact absurd hsd (by decide)
        rw [List.cons_append] at h1 h2 h3
        simp only [exponent, List.cons_append, List.nil_append, if_pos he, if_neg n1, h1, h2]
        rfl
    · simp only [exponent, List.cons_append, List.nil_append, if_pos he, h1, h2, true_or, if_true]
      rw [h1] at h3
      rw [h3]; rfl
    · simp only [exponent, List.cons_append, List.nil_append, if_pos he, h1, h2, or_true, if_true]
      rw [h1] at h3
      rw [h3]; rfl

/-- The sign of a number. -/
def sign (neg : Bool) : List Char := if neg then ['-'] else []

theorem number_some {neg : Bool} {t r : List Char} {j : Json} (h : number neg t = some (j, r)) :
    ∃ u, t = u ++ r ∧ IsNumber j (sign neg ++ u) := by
  simp only [number] at h
  split at h
  · cases h
  · rename_i hd
    simp only [not_or, not_and] at hd
    obtain ⟨h1, h2⟩ := digits_split hd.1
    have hw : Whole (t.takeWhile isDigit) := by
      refine ⟨h1, ?_⟩
      by_cases h0 : (t.takeWhile isDigit).head? = some '0'
      · have := hd.2 h0
        have h3 : (t.takeWhile isDigit).length ≠ 0 := by
          intro h3; exact h1.1 (List.length_eq_zero_iff.mp h3)
        exact .inl (by omega)
      · exact .inr h0
    simp only [Option.bind_eq_bind, Option.bind_eq_some_iff, Prod.exists, Option.some.injEq, Prod.mk.injEq] at h
    obtain ⟨f, r1, hf, e, r2, he, hj, rfl⟩ := h
    obtain ⟨uf, hf1, hf2, hf3⟩ := fraction_some hf
    obtain ⟨ue, he1, he2, he3⟩ := exponent_some he
    refine ⟨t.takeWhile isDigit ++ uf ++ ue, by rw [List.append_assoc, List.append_assoc, ← he1, ← hf1]; exact h2, ?_⟩
    generalize t.takeWhile isDigit = ds at *
    by_cases hfe : f = true ∨ e = true
    · have hb : (f || e) = true := by simpa using hfe
      rw [hb, if_pos rfl] at hj
      subst hj
      rw [hf3, he3] at hfe
      have := IsNumber.float (sign neg) ds uf ue (by cases neg <;> simp [sign]) hw hf2 he2 hfe
      simpa using this
    · have hb : ¬ (f || e) = true := by simpa using hfe
      rw [if_neg hb, digitsValue_eq] at hj
      have huf : uf = [] := Classical.byContradiction fun hn => hfe (.inl (hf3.mpr hn))
      have hue : ue = [] := Classical.byContradiction fun hn => hfe (.inr (he3.mpr hn))
      subst huf hue
      simp only [List.append_nil]
      subst hj
      unfold intTree sign
      cases neg
      · simp only [Bool.false_eq_true, if_false, List.nil_append]
        split
        · rename_i hb; exact .nat ds hw hb
        · rename_i hb; exact .large ds hw (by omega)
      · simp only [if_true]
        split
        · rename_i hb; exact .neg ds hw (by omega) hb.2
        · rename_i hb; exact .negOther ds hw (by omega)

theorem stop_fraction {f e r : List Char} (hf : Fraction f) (he : Exponent e) (hr : Stop r) :
    (∀ c ∈ (f ++ (e ++ r)).head?, isDigit c = false) ∧ (∀ c ∈ (e ++ r).head?, isDigit c = false ∧ c ≠ '.') := by
  have h2 : ∀ c ∈ (e ++ r).head?, isDigit c = false ∧ c ≠ '.' := by
    rcases he with rfl | ⟨x, sg, ds, hx, _, _, rfl⟩
    · intro c hc; exact ⟨(hr c hc).1, (hr c hc).2.1⟩
    · intro c hc
      simp only [List.cons_append, List.head?_cons, Option.mem_def, Option.some.injEq] at hc
      subst hc
      rcases hx with rfl | rfl <;> decide
  refine ⟨?_, h2⟩
  rcases hf with rfl | ⟨ds, _, rfl⟩
  · intro c hc; exact (h2 c hc).1
  · intro c hc
    simp only [List.cons_append, List.head?_cons, Option.mem_def, Option.some.injEq] at hc
    subst hc
    decide

theorem number_parts {neg : Bool} {ds f e r : List Char} (hw : Whole ds) (hf : Fraction f) (he : Exponent e) (hr : Stop r) :
    number neg (ds ++ f ++ e ++ r) =
      some (if f ≠ [] ∨ e ≠ [] then .num else intTree neg (decimal ds), r) := by
  obtain ⟨s1, s2⟩ := stop_fraction hf he hr
  obtain ⟨h1, h2, h3⟩ := digits_append hw.1 s1
  have e1 : ds ++ f ++ e ++ r = ds ++ (f ++ (e ++ r)) := by simp
  rw [e1]
  simp only [number, h1, h2]
  rw [if_neg]
  · rw [fraction_of hf s2]
    simp only [Option.bind_eq_bind, Option.bind_some]
    rw [exponent_of he fun c hc => ⟨(hr c hc).1, (hr c hc).2.2⟩]
    simp only [Option.bind_some, digitsValue_eq]
    cases f <;> cases e <;> simp
  · rintro (hn | ⟨h0, hl⟩)
    · have := hw.1.1
      cases ds with
      | nil => exact this rfl
      | cons => cases hn
    · rcases hw.2 with hw | hw
      · omega
      · exact hw h0

theorem number_of {j : Json} {t : List Char} (h : IsNumber j t) :
    ∃ neg u, t = sign neg ++ u ∧ (∃ c u', u = c :: u' ∧ isDigit c = true) ∧ ∀ r, Stop r → number neg (u ++ r) = some (j, r) := by
  have start : ∀ {ds : List Char} (v : List Char), Whole ds → ∃ c u', ds ++ v = c :: u' ∧ isDigit c = true := by
    intro ds v hw
    cases ds with
    | nil => exact absurd rfl hw.1.1
    | cons c ds => exact ⟨c, ds ++ v, rfl, (digits_iff.mp hw.1).2 c (by simp)⟩
  have plain : ∀ {ds r : List Char} (neg : Bool), Whole ds → Stop r → number neg (ds ++ r) = some (intTree neg (decimal ds), r) := by
    intro ds r neg hw hr
    have := number_parts (neg := neg) hw (.inl rfl) (.inl rfl) hr
    simpa using this
  cases h with
  | nat ds hw hb =>
    refine ⟨false, t, rfl, by simpa using start [] hw, fun r hr => ?_⟩
    rw [plain false hw hr]
    simp only [intTree, Bool.false_eq_true, if_false, if_pos hb]
  | large ds hw hb =>
    refine ⟨false, t, rfl, by simpa using start [] hw, fun r hr => ?_⟩
    rw [plain false hw hr]
    simp only [intTree, Bool.false_eq_true, if_false]
    rw [if_neg (by omega)]
  | neg ds hw h0 hb =>
    refine ⟨true, ds, rfl, by simpa using start [] hw, fun r hr => ?_⟩
    rw [plain true hw hr]
    simp only [intTree, if_true]
    rw [if_pos ⟨by omega, hb⟩]
  | negOther ds hw hb =>
    refine ⟨true, ds, rfl, by simpa using start [] hw, fun r hr => ?_⟩
    rw [plain true hw hr]
    simp only [intTree, if_true]
    rw [if_neg (by omega)]
  | float sg ds f e hs hw hf he hne =>
    have main : ∀ neg r, Stop r → number neg (ds ++ f ++ e ++ r) = some (.num, r) := by
      intro neg r hr
      rw [number_parts hw hf he hr, if_pos hne]
    rcases hs with rfl | rfl
    · exact ⟨false, ds ++ f ++ e, rfl, by simpa using start (f ++ e) hw, main false⟩
    · exact ⟨true, ds ++ f ++ e, by simp [sign], by simpa using start (f ++ e) hw, main true⟩

/-! ### Arrays and objects -/

/-- The reader `p` reads only spellings in the sense of `P`. -/
def Sound (p : List Char → Option (Json × List Char)) (P : Json → List Char → Prop) : Prop :=
  ∀ t j r, p t = some (j, r) → ∃ u, t = u ++ r ∧ P j u

/-- The reader `p` reads all spellings in the sense of `P`. -/
def Complete (p : List Char → Option (Json × List Char)) (P : Json → List Char → Prop) : Prop :=
  ∀ j u r, P j u → Stop r → p (u ++ r) = some (j, r)

/-- Spellings start with something else than white space and closing brackets. -/
def Starts (P : Json → List Char → Prop) : Prop :=
  ∀ j u, P j u → ∃ c u', u = c :: u' ∧ isWs c = false ∧ c ≠ ']'

theorem elements_some {p : List Char → Option (Json × List Char)} {P : Json → List Char → Prop} (hp : Sound p P) {fuel : Nat} :
    ∀ {t r : List Char} {l : List Json}, elements p fuel t = some (l, r) → ∃ u, t = u ++ ']' :: r ∧ IsElements P l u := by
  induction fuel with
  | zero => intro t r l h; simp [elements] at h
  | succ fuel ih =>
    intro t r l h
    simp only [elements, Option.bind_eq_bind, Option.bind_eq_some_iff, Prod.exists] at h
    obtain ⟨j, r1, h1, h⟩ := h
    obtain ⟨v, hv, ev⟩ := skipWs_split t
    obtain ⟨u, hu, hj⟩ := hp _ _ _ h1
    obtain ⟨w, hw, ew⟩ := skipWs_split r1
    split at h
    · rename_i r2 e2
      simp only [Option.bind_eq_some_iff, Prod.exists, Option.some.injEq, Prod.mk.injEq] at h
      obtain ⟨l', r3, h3, rfl, rfl⟩ := h
      obtain ⟨u', rfl, hl⟩ := ih h3
      refine ⟨v ++ u ++ w ++ ',' :: u', ?_, .more j v u w l' u' hv hj hw hl⟩
      rw [ev, hu, ew, e2]; simp
    · rename_i r2 e2
      cases h
      refine ⟨v ++ u ++ w, ?_, .one j v u w hv hj hw⟩
      rw [ev, hu, ew, e2]; simp
    · cases h

theorem stop_ws {w : List Char} {c : Char} {r : List Char} (hw : Ws w) (hc : isDigit c = false ∧ c ≠ '.' ∧ c ≠ 'e' ∧ c ≠ 'E') :
    Stop (w ++ c :: r) := by
  cases w with
  | nil =>
    intro x hx
    simp only [List.nil_append, List.head?_cons, Option.mem_def, Option.some.injEq] at hx
    subst hx; exact hc
  | cons a w =>
    intro x hx
    simp only [List.cons_append, List.head?_cons, Option.mem_def, Option.some.injEq] at hx
    subst hx
    have := hw a (by simp)
    simp only [List.mem_cons, List.not_mem_nil, or_false] at this
    rcases this with rfl | rfl | rfl | rfl <;> decide

theorem skip_to {w : List Char} {c : Char} {r : List Char} (hw : Ws w) (hc : isWs c = false) :
    skipWs (w ++ c :: r) = c :: r :=
  skipWs_append hw (by simpa using hc)

theorem elements_of {p : List Char → Option (Json × List Char)} {P : Json → List Char → Prop} (hp : Complete p P) (hs : Starts P)
    {l : List Json} {u : List Char} (h : IsElements P l u) :
    ∀ {fuel : Nat} {r : List Char}, u.length < fuel → elements p fuel (u ++ ']' :: r) = some (l, r) := by
  induction h with
  | one j v t w hv ht hw =>
    intro fuel r hf
    cases fuel with
    | zero => simp at hf
    | succ fuel =>
      obtain ⟨c, t', rfl, hc, _⟩ := hs _ _ ht
      have e : v ++ c :: t' ++ w ++ ']' :: r = v ++ c :: (t' ++ (w ++ ']' :: r)) := by simp
      have h1 := hp j _ (w ++ ']' :: r) ht (stop_ws hw (by decide))
      rw [List.cons_append] at h1
      rw [e]
      simp only [elements, skip_to hv hc, h1, Option.bind_eq_bind, Option.bind_some, skip_to hw (show isWs ']' = false by decide)]
  | more j v t w l u hv ht hw hl ih =>
    intro fuel r hf
    cases fuel with
    | zero => simp at hf
    | succ fuel =>
      obtain ⟨c, t', rfl, hc, _⟩ := hs _ _ ht
      have e : v ++ c :: t' ++ w ++ ',' :: u ++ ']' :: r = v ++ c :: (t' ++ (w ++ ',' :: (u ++ ']' :: r))) := by simp
      have h1 := hp j _ (w ++ ',' :: (u ++ ']' :: r)) ht (stop_ws hw (by decide))
      rw [List.cons_append] at h1
      have h2 := ih (fuel := fuel) (r := r) (by simp at hf; omega)
      rw [e]
      simp only [elements, skip_to hv hc, h1, Option.bind_eq_bind, Option.bind_some, skip_to hw (show isWs ',' = false by decide), h2]

theorem members_some {p : List Char → Option (Json × List Char)} {P : Json → List Char → Prop} (hp : Sound p P) {fuel : Nat} :
    ∀ {t r : List Char} {l : List (String × Json)}, members p fuel t = some (l, r) →
      ∃ u, t = u ++ '}' :: r ∧ IsMembers P l u := by
  induction fuel with
  | zero => intro t r l h; simp [members] at h
  | succ fuel ih =>
    intro t r l h
    simp only [members] at h
    obtain ⟨v, hv, ev⟩ := skipWs_split t
    split at h
    · rename_i r0 e0
      simp only [Option.bind_eq_bind, Option.bind_eq_some_iff, Prod.exists] at h
      obtain ⟨s, b, r1, h1, h⟩ := h
      obtain ⟨cs, us, rfl, hus, hcs⟩ := string_some h1
      obtain ⟨w1, hw1, ew1⟩ := skipWs_split r1
      split at h
      · rename_i r2 e2
        simp only [Option.bind_eq_some_iff, Prod.exists] at h
        obtain ⟨j, r3, h3, h⟩ := h
        obtain ⟨x, hx, ex⟩ := skipWs_split r2
        obtain ⟨u, hu, hj⟩ := hp _ _ _ h3
        obtain ⟨w, hw, ew⟩ := skipWs_split r3
        have hn := IsName.mk cs b v us w1 x hv hcs hw1 hx
        have et : t = v ++ '"' :: us ++ '"' :: w1 ++ ':' :: x ++ (u ++ r3) := by
          rw [ev, e0, hus, ew1, e2, ex, hu]; simp
        split at h
        · rename_i r4 e4
          simp only [Option.bind_eq_some_iff, Prod.exists, Option.some.injEq, Prod.mk.injEq] at h
          obtain ⟨l', r5, h5, rfl, rfl⟩ := h
          obtain ⟨u', rfl, hl⟩ := ih h5
          refine ⟨_, ?_, .more _ j _ u w l' u' hn hj hw hl⟩
          rw [et, ew, e4]; simp
        · rename_i r4 e4
          cases h
          refine ⟨_, ?_, .one _ j _ u w hn hj hw⟩
          rw [et, ew, e4]; simp
        · cases h
      · cases h
    · cases h

theorem members_step {p : List Char → Option (Json × List Char)} {P : Json → List Char → Prop} (hp : Complete p P) (hs : Starts P)
    {n : String} {j : Json} {m t w : List Char} {c : Char} {rest : List Char} (hn : IsName n m) (ht : P j t) (hw : Ws w)
    (hc : isDigit c = false ∧ c ≠ '.' ∧ c ≠ 'e' ∧ c ≠ 'E') (hcw : isWs c = false) (fuel : Nat) :
    members p (fuel + 1) (m ++ t ++ w ++ c :: rest) =
      match c :: rest with
      | ',' :: r => do
        let (l, r) ← members p fuel r
        some ((n, j) :: l, r)
      | '}' :: r => some ([(n, j)], r)
      | _ => none := by
  cases hn with
  | mk cs b v us w1 x hv hcs hw1 hx =>
    obtain ⟨d, t', rfl, hd, _⟩ := hs _ _ ht
    have e : v ++ '"' :: us ++ '"' :: w1 ++ ':' :: x ++ d :: t' ++ w ++ c :: rest =
        v ++ '"' :: (us ++ '"' :: (w1 ++ ':' :: (x ++ d :: (t' ++ (w ++ c :: rest))))) := by simp
    have h1 := hp j _ (w ++ c :: rest) ht (stop_ws hw hc)
    rw [List.cons_append] at h1
    rw [e, members]
    simp only [skip_to hv (show isWs '"' = false by decide), string_of hcs, Option.bind_eq_bind, Option.bind_some,
      skip_to hw1 (show isWs ':' = false by decide), skip_to hx hd, h1, skip_to hw hcw]
    rfl

theorem members_of {p : List Char → Option (Json × List Char)} {P : Json → List Char → Prop} (hp : Complete p P) (hs : Starts P)
    {l : List (String × Json)} {u : List Char} (h : IsMembers P l u) :
    ∀ {fuel : Nat} {r : List Char}, u.length < fuel → members p fuel (u ++ '}' :: r) = some (l, r) := by
  induction h with
  | one n j m t w hn ht hw =>
    intro fuel r hf
    cases fuel with
    | zero => simp at hf
    | succ fuel => rw [members_step hp hs hn ht hw (by decide) (by decide)]; rfl
  | more n j m t w l u hn ht hw hl ih =>
    intro fuel r hf
    cases fuel with
    | zero => simp at hf
    | succ fuel =>
      have e : m ++ t ++ w ++ ',' :: u ++ '}' :: r = m ++ t ++ w ++ ',' :: (u ++ '}' :: r) := by simp
      have h2 := ih (fuel := fuel) (r := r) (by simp at hf; omega)
      rw [e, members_step hp hs hn ht hw (by decide) (by decide)]
      simp [h2]

theorem array_some {p : List Char → Option (Json × List Char)} {P : Json → List Char → Prop} (hp : Sound p P)
    {t r : List Char} {j : Json} (h : array p t = some (j, r)) : ∃ u, '[' :: t = u ++ r ∧ IsBracket P j u := by
  obtain ⟨w, hw, e⟩ := skipWs_split t
  unfold array at h
  split at h
  · rename_i r' e'
    cases h
    exact ⟨'[' :: w ++ [']'], by rw [e, e']; simp, .noElements w hw⟩
  · simp only [Option.bind_eq_bind, Option.bind_eq_some_iff, Prod.exists, Option.some.injEq, Prod.mk.injEq] at h
    obtain ⟨l, r', h, rfl, rfl⟩ := h
    obtain ⟨u, rfl, hl⟩ := elements_some hp h
    exact ⟨'[' :: u ++ [']'], by simp, .elements l u hl⟩

theorem object_some {p : List Char → Option (Json × List Char)} {P : Json → List Char → Prop} (hp : Sound p P)
    {t r : List Char} {j : Json} (h : object p t = some (j, r)) : ∃ u, '{' :: t = u ++ r ∧ IsBracket P j u := by
  obtain ⟨w, hw, e⟩ := skipWs_split t
  unfold object at h
  split at h
  · rename_i r' e'
    cases h
    exact ⟨'{' :: w ++ ['}'], by rw [e, e']; simp, .noMembers w hw⟩
  · simp only [Option.bind_eq_bind, Option.bind_eq_some_iff, Prod.exists, Option.some.injEq, Prod.mk.injEq] at h
    obtain ⟨l, r', h, rfl, rfl⟩ := h
    obtain ⟨u, rfl, hl⟩ := members_some hp h
    exact ⟨'{' :: u ++ ['}'], by simp, .members l u hl⟩

theorem elements_start {P : Json → List Char → Prop} (hs : Starts P) {l : List Json} {u : List Char} (h : IsElements P l u) :
    ∃ v c u', Ws v ∧ u = v ++ c :: u' ∧ isWs c = false ∧ c ≠ ']' := by
  cases h with
  | one j v t w hv ht hw =>
    obtain ⟨c, t', rfl, h1, h2⟩ := hs _ _ ht
    exact ⟨v, c, t' ++ w, hv, by simp, h1, h2⟩
  | more j v t w l u hv ht hw hl =>
    obtain ⟨c, t', rfl, h1, h2⟩ := hs _ _ ht
    exact ⟨v, c, t' ++ (w ++ ',' :: u), hv, by simp, h1, h2⟩

theorem members_start {P : Json → List Char → Prop} {l : List (String × Json)} {u : List Char} (h : IsMembers P l u) :
    ∃ v u', Ws v ∧ u = v ++ '"' :: u' := by
  have name : ∀ {n m}, IsName n m → ∀ z, ∃ v u', Ws v ∧ m ++ z = v ++ '"' :: u' := by
    rintro _ _ ⟨cs, b, v, us, w1, x, hv, _, _, _⟩ z
    exact ⟨v, us ++ ('"' :: (w1 ++ ':' :: (x ++ z))), hv, by simp⟩
  cases h with
  | one n j m t w hn ht hw => rw [List.append_assoc]; exact name hn _
  | more n j m t w l u hn ht hw hl => rw [List.append_assoc, List.append_assoc]; exact name hn _

theorem array_of_elements {p : List Char → Option (Json × List Char)} {P : Json → List Char → Prop} (hp : Complete p P)
    (hs : Starts P) {l : List Json} {u r : List Char} (h : IsElements P l u) : array p (u ++ ']' :: r) = some (.arr l, r) := by
  have h1 := elements_of hp hs h (fuel := (u ++ ']' :: r).length) (r := r) (by simp)
  obtain ⟨v, c, u', hv, rfl, hc, hc'⟩ := elements_start hs h
  have h2 : skipWs (v ++ c :: u' ++ ']' :: r) = c :: (u' ++ ']' :: r) := by
    rw [List.append_assoc, List.cons_append]; exact skip_to hv hc
  unfold array
  rw [h2]
  split
  · rename_i e
    simp only [List.cons.injEq] at e
    exact absurd e.1 hc'
  · rw [h1]; rfl

theorem object_of_members {p : List Char → Option (Json × List Char)} {P : Json → List Char → Prop} (hp : Complete p P)
    (hs : Starts P) {l : List (String × Json)} {u r : List Char} (h : IsMembers P l u) :
    object p (u ++ '}' :: r) = some (.obj l, r) := by
  have h1 := members_of hp hs h (fuel := (u ++ '}' :: r).length) (r := r) (by simp)
  obtain ⟨v, u', hv, rfl⟩ := members_start h
  have h2 : skipWs (v ++ '"' :: u' ++ '}' :: r) = '"' :: (u' ++ '}' :: r) := by
    rw [List.append_assoc, List.cons_append]; exact skip_to hv (by decide)
  unfold object
  rw [h2]
  simp only [h1, Option.bind_eq_bind, Option.bind_some]
  rfl

theorem array_empty {p : List Char → Option (Json × List Char)} {w r : List Char} (hw : Ws w) :
    array p (w ++ ']' :: r) = some (.arr [], r) := by
  unfold array; rw [skip_to hw (by decide)]; rfl

theorem object_empty {p : List Char → Option (Json × List Char)} {w r : List Char} (hw : Ws w) :
    object p (w ++ '}' :: r) = some (.obj [], r) := by
  unfold object; rw [skip_to hw (by decide)]; rfl

/-! ### Values and texts -/

theorem isValue_scalar {d : Nat} {j : Json} {t : List Char} (h : IsScalar j t) : IsValue d j t := by
  cases d with
  | zero => exact h
  | succ d => exact .inl h

theorem value_sound (d : Nat) : Sound (value d) (IsValue d) := by
  induction d with
  | zero =>
    intro t j r h
    unfold value at h
    split at h
    · cases h; exact ⟨_, rfl, .null⟩
    · cases h; exact ⟨_, rfl, .true⟩
    · cases h; exact ⟨_, rfl, .false⟩
    · simp only [Option.bind_eq_bind, Option.bind_eq_some_iff, Prod.exists, Option.some.injEq, Prod.mk.injEq] at h
      obtain ⟨s, e, r', h, rfl, rfl⟩ := h
      obtain ⟨l, u, rfl, rfl, hl⟩ := string_some h
      exact ⟨'"' :: u ++ ['"'], by simp, .str l e u hl⟩
    · rename_i e; cases e
    · rename_i e; cases e
    · obtain ⟨u, rfl, hu⟩ := number_some h
      exact ⟨'-' :: u, rfl, .number _ _ hu⟩
    · obtain ⟨u, rfl, hu⟩ := number_some h
      exact ⟨u, rfl, .number _ _ hu⟩
  | succ d ih =>
    intro t j r h
    unfold value at h
    split at h
    · cases h; exact ⟨_, rfl, .inl .null⟩
    · cases h; exact ⟨_, rfl, .inl .true⟩
    · cases h; exact ⟨_, rfl, .inl .false⟩
    · simp only [Option.bind_eq_bind, Option.bind_eq_some_iff, Prod.exists, Option.some.injEq, Prod.mk.injEq] at h
      obtain ⟨s, e, r', h, rfl, rfl⟩ := h
      obtain ⟨l, u, rfl, rfl, hl⟩ := string_some h
      exact ⟨'"' :: u ++ ['"'], by simp, .inl (.str l e u hl)⟩
    · rename_i e
      cases e
      obtain ⟨u, hu, hb⟩ := array_some ih h
      exact ⟨u, hu, .inr hb⟩
    · rename_i e
      cases e
      obtain ⟨u, hu, hb⟩ := object_some ih h
      exact ⟨u, hu, .inr hb⟩
    · obtain ⟨u, rfl, hu⟩ := number_some h
      exact ⟨'-' :: u, rfl, .inl (.number _ _ hu)⟩
    · obtain ⟨u, rfl, hu⟩ := number_some h
      exact ⟨u, rfl, .inl (.number _ _ hu)⟩

theorem digit_value {d : Nat} {c : Char} {t : List Char} (hc : isDigit c = true) : value d (c :: t) = number false (c :: t) := by
  unfold value
  split
  all_goals first
    | rfl
    | (rename_i e; simp only [List.cons.injEq] at e; obtain ⟨rfl, _⟩ := e; exact absurd hc (by decide))

theorem scalar_complete (d : Nat) : Complete (value d) IsScalar := by
  intro j u r h hr
  cases h with
  | null => unfold value; rfl
  | true => unfold value; rfl
  | false => unfold value; rfl
  | str l e t h =>
    have e1 : '"' :: t ++ ['"'] ++ r = '"' :: (t ++ '"' :: r) := by simp
    rw [e1]
    unfold value
    simp only [string_of h, Option.bind_eq_bind, Option.bind_some]
  | number j u h =>
    obtain ⟨neg, v, rfl, ⟨c, v', rfl, hc⟩, h⟩ := number_of h
    cases neg
    · simp only [sign, Bool.false_eq_true, if_false, List.nil_append]
      rw [List.cons_append, digit_value hc]
      exact h r hr
    · have := h r hr
      simp only [sign, if_true, List.cons_append, List.nil_append] at this ⊢
      unfold value
      exact this

theorem value_starts (d : Nat) : Starts (IsValue d) := by
  have sc : Starts IsScalar := by
    intro j u h
    cases h with
    | null => exact ⟨'n', _, rfl, by decide, by decide⟩
    | true => exact ⟨'t', _, rfl, by decide, by decide⟩
    | false => exact ⟨'f', _, rfl, by decide, by decide⟩
    | str l e t h => exact ⟨'"', _, rfl, by decide, by decide⟩
    | number j u h =>
      obtain ⟨neg, v, rfl, ⟨c, v', rfl, hc⟩, _⟩ := number_of h
      cases neg
      · refine ⟨c, v', rfl, ?_, ?_⟩
        · cases hw : isWs c with
          | false => rfl
          | true =>
            have := isWs_iff.mp hw
            simp only [List.mem_cons, List.not_mem_nil, or_false] at this
            rcases this with rfl | rfl | rfl | rfl <;> exact absurd hc (by decide)
        · rintro rfl; exact absurd hc (by decide)
      · exact ⟨'-', _, rfl, by decide, by decide⟩
  cases d with
  | zero => exact sc
  | succ d =>
    rintro j u (h | h)
    · exact sc j u h
    · cases h with
      | noElements w h => exact ⟨'[', _, rfl, by decide, by decide⟩
      | elements l t h => exact ⟨'[', _, rfl, by decide, by decide⟩
      | noMembers w h => exact ⟨'{', _, rfl, by decide, by decide⟩
      | members l t h => exact ⟨'{', _, rfl, by decide, by decide⟩

theorem value_complete (d : Nat) : Complete (value d) (IsValue d) := by
  induction d with
  | zero => exact scalar_complete 0
  | succ d ih =>
    rintro j u r (h | h) hr
    · exact scalar_complete _ j u r h hr
    · cases h with
      | noElements w h =>
        have e : '[' :: w ++ [']'] ++ r = '[' :: (w ++ ']' :: r) := by simp
        rw [e]
        unfold value
        exact array_empty h
      | elements l t h =>
        have e : '[' :: t ++ [']'] ++ r = '[' :: (t ++ ']' :: r) := by simp
        rw [e]
        unfold value
        exact array_of_elements ih (value_starts d) h
      | noMembers w h =>
        have e : '{' :: w ++ ['}'] ++ r = '{' :: (w ++ '}' :: r) := by simp
        rw [e]
        unfold value
        exact object_empty h
      | members l t h =>
        have e : '{' :: t ++ ['}'] ++ r = '{' :: (t ++ '}' :: r) := by simp
        rw [e]
        unfold value
        exact object_of_members ih (value_starts d) h

theorem parse_iff (b : Bytes) (j : Json) : parse b = some j ↔ Spells b j := by
  constructor
  · intro h
    simp only [parse, Option.bind_eq_bind, Option.bind_eq_some_iff, Prod.exists] at h
    obtain ⟨t, ht, j', r, hv, h⟩ := h
    split at h
    · rename_i hr
      cases h
      obtain ⟨v, hvw, ev⟩ := skipWs_split t
      obtain ⟨u, hu, hj⟩ := value_sound _ _ _ _ hv
      refine ⟨v, u, r, hvw, hj, skipWs_nil hr, ?_⟩
      rw [List.append_assoc, ← hu, ← ev]
      exact decodeUtf8_iff.mp ht
    · cases h
  · rintro ⟨v, t, w, hv, ht, hw, rfl⟩
    obtain ⟨c, t', rfl, hc, _⟩ := value_starts _ _ _ ht
    have hstop : Stop w := by
      cases w with
      | nil => intro x hx; simp at hx
      | cons a w =>
        have := stop_ws (w := [a]) (c := ',') (r := []) (fun x hx => hw x (by simp at hx; simp [hx])) (by decide)
        intro x hx
        exact this x (by simpa using hx)
    have h1 := value_complete 127 j _ w ht hstop
    have h2 : skipWs (v ++ c :: t' ++ w) = c :: t' ++ w := by
      rw [List.append_assoc]; exact skip_to hv hc
    simp only [parse, decode_utf8, Option.bind_eq_bind, Option.bind_some, h2, maxDepth, h1, skipWs_all hw, if_true]

end JsonText

/-! ### Comparing trees, for the examples -/

mutual

/-- The trees are the same. -/
def Json.same : Json → Json → Bool
  | .null, .null => true
  | .bool a, .bool b => a == b
  | .int a, .int b => a == b
  | .num, .num => true
  | .str a e, .str b f => a == b && e == f
  | .arr l, .arr l' => sameList l l'
  | .obj l, .obj l' => sameMembers l l'
  | _, _ => false

/-- The lists of trees are the same. -/
def Json.sameList : List Json → List Json → Bool
  | [], [] => true
  | a :: l, b :: l' => Json.same a b && sameList l l'
  | _, _ => false

/-- The lists of members are the same. -/
def Json.sameMembers : List (String × Json) → List (String × Json) → Bool
  | [], [] => true
  | (n, a) :: l, (m, b) :: l' => n == m && Json.same a b && sameMembers l l'
  | _, _ => false

end

mutual

theorem Json.eq_of_same : ∀ a b, Json.same a b = true → a = b
  | .null, b, h => by cases b <;> simp_all [Json.same]
  | .bool _, b, h => by cases b <;> simp_all [Json.same]
  | .int _, b, h => by cases b <;> simp_all [Json.same]
  | .num, b, h => by cases b <;> simp_all [Json.same]
  | .str _ _, b, h => by cases b <;> simp_all [Json.same]
  | .arr l, b, h => by
    cases b with
    | arr l' => rw [Json.same] at h; rw [Json.eq_of_sameList l l' h]
    | _ => simp [Json.same] at h
  | .obj l, b, h => by
    cases b with
    | obj l' => rw [Json.same] at h; rw [Json.eq_of_sameMembers l l' h]
    | _ => simp [Json.same] at h

theorem Json.eq_of_sameList : ∀ a b, Json.sameList a b = true → a = b
  | [], [], _ => rfl
  | [], _ :: _, h => by simp [Json.sameList] at h
  | _ :: _, [], h => by simp [Json.sameList] at h
  | a :: l, b :: l', h => by
    rw [Json.sameList, Bool.and_eq_true] at h
    rw [Json.eq_of_same a b h.1, Json.eq_of_sameList l l' h.2]

theorem Json.eq_of_sameMembers : ∀ a b, Json.sameMembers a b = true → a = b
  | [], [], _ => rfl
  | [], _ :: _, h => by simp [Json.sameMembers] at h
  | _ :: _, [], h => by simp [Json.sameMembers] at h
  | (n, a) :: l, (m, b) :: l', h => by
    rw [Json.sameMembers, Bool.and_eq_true, Bool.and_eq_true, beq_iff_eq] at h
    rw [h.1.1, Json.eq_of_same a b h.1.2, Json.eq_of_sameMembers l l' h.2]

end

/-- The text spells the tree, by evaluation. -/
theorem JsonText.spells_of_parse {b : Bytes} {j : Json} (h : ((parse b).map fun i => Json.same i j) = some true) :
    Spelling.Spells b j := by
  obtain ⟨i, hi, hs⟩ := Option.map_eq_some_iff.mp h
  rw [← Json.eq_of_same i j hs]
  exact (parse_iff b i).mp hi

end Verif
