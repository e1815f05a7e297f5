import Verif.Spec.Collateral
import Verif.Model.EthAddress

/-!
# Hexadecimal text
-/

namespace Verif

theorem forall_byte {P : UInt8 → Prop} (h : ∀ n < 256, P (UInt8.ofNat n)) (x : UInt8) : P x := by
  have := h x.toNat x.toNat_lt
  rwa [UInt8.ofNat_toNat] at this

/-- Lower case of one character. -/
def lowerChar (x : UInt8) : UInt8 := if 65 ≤ x ∧ x ≤ 90 then x + 32 else x

theorem lowerCase_eq (b : Bytes) : lowerCase b = b.map lowerChar := rfl

theorem hexLower_eq : ∀ n < 16, hexLower n = hexDigit n := by decide +kernel

theorem hexVal_iff (x : UInt8) (v : Nat) : hexVal x = some v ↔ v < 16 ∧ lowerChar x = hexDigit v := by
  have h1 : ∀ x : UInt8, ∀ v < 16, (hexVal x = some v ↔ lowerChar x = hexDigit v) :=
    forall_byte (P := fun x => ∀ v < 16, (hexVal x = some v ↔ lowerChar x = hexDigit v)) (by decide +kernel)
  have h2 : ∀ x : UInt8, (hexVal x).all (· < 16) = true :=
    forall_byte (P := fun x => (hexVal x).all (· < 16) = true) (by decide +kernel)
  constructor
  · intro h
    have h3 := h2 x
    rw [h] at h3
    have h4 : v < 16 := by simpa using h3
    exact ⟨h4, (h1 x v h4).mp h⟩
  · rintro ⟨h, h'⟩; exact (h1 x v h).mpr h'

theorem hexDigit_inj : ∀ a < 16, ∀ b < 16, hexDigit a = hexDigit b → a = b := by decide +kernel

theorem hexOf_cons (x : UInt8) (b : Bytes) :
    hexOf (x :: b) = hexDigit (x.toNat / 16) :: hexDigit (x.toNat % 16) :: hexOf b := rfl

theorem hexOf_length (b : Bytes) : (hexOf b).length = 2 * b.length := by
  induction b with
  | nil => rfl
  | cons x b ih => simp only [hexOf_cons, List.length_cons, ih]; omega

theorem hexEncode_eq (b : Bytes) : hexEncode b = hexOf b := by
  induction b with
  | nil => rfl
  | cons x b ih =>
    have hx := x.toNat_lt
    rw [hexOf_cons, ← ih, ← hexLower_eq _ (by omega), ← hexLower_eq _ (by omega)]
    rfl

theorem hexDecode_iff (s b : Bytes) : hexDecode s = some b ↔ lowerCase s = hexOf b := by
  match s with
  | [] =>
    cases b with
    | nil => simp [hexDecode, lowerCase, hexOf]
    | cons x b => simp [hexDecode, lowerCase, hexOf_cons]
  | [x] =>
    cases b with
    | nil => simp [hexDecode, lowerCase, hexOf]
    | cons x b => simp [hexDecode, lowerCase, hexOf_cons]
  | x :: y :: s =>
    have ih := hexDecode_iff s
    simp only [hexDecode, Option.bind_eq_bind, Option.bind_eq_some_iff, Option.some.injEq, lowerCase_eq, List.map_cons]
    constructor
    · rintro ⟨h, hh, l, hl, r, hr, rfl⟩
      obtain ⟨h1, h2⟩ := (hexVal_iff _ _).mp hh
      obtain ⟨h3, h4⟩ := (hexVal_iff _ _).mp hl
      have h5 : (UInt8.ofNat (h * 16 + l)).toNat = h * 16 + l := by simp only [UInt8.toNat_ofNat']; omega
      rw [hexOf_cons, h5, h2, h4, ← (ih r).mp hr, lowerCase_eq]
      have e1 : (h * 16 + l) / 16 = h := by omega
      have e2 : (h * 16 + l) % 16 = l := by omega
      rw [e1, e2]
    · intro h
      cases b with
      | nil => simp [hexOf] at h
      | cons z b =>
        rw [hexOf_cons] at h
        simp only [List.cons.injEq] at h
        obtain ⟨h1, h2, h3⟩ := h
        have hz := z.toNat_lt
        refine ⟨_, (hexVal_iff x _).mpr ⟨by omega, h1⟩, _, (hexVal_iff y _).mpr ⟨by omega, h2⟩, b, (ih b).mpr h3, ?_⟩
        have : z.toNat / 16 * 16 + z.toNat % 16 = z.toNat := by omega
        rw [this, UInt8.ofNat_toNat]

theorem hexDecode_length {s b : Bytes} (h : hexDecode s = some b) : s.length = 2 * b.length := by
  have := congrArg List.length ((hexDecode_iff s b).mp h)
  rw [hexOf_length] at this
  simpa [lowerCase] using this

theorem hexDigit_range : ∀ n < 16, 48 ≤ hexDigit n ∧ hexDigit n ≤ 102 ∧ ¬ (65 ≤ hexDigit n ∧ hexDigit n ≤ 90) := by
  decide +kernel

theorem hexOf_mem {b : Bytes} {x : UInt8} (h : x ∈ hexOf b) : ∃ n < 16, x = hexDigit n := by
  induction b with
  | nil => simp [hexOf] at h
  | cons y b ih =>
    rw [hexOf_cons] at h
    have hy := y.toNat_lt
    simp only [List.mem_cons] at h
    rcases h with rfl | rfl | h
    · exact ⟨_, by omega, rfl⟩
    · exact ⟨_, by omega, rfl⟩
    · exact ih h

theorem lowerCase_hexOf (b : Bytes) : lowerCase (hexOf b) = hexOf b := by
  have : ∀ x ∈ hexOf b, lowerChar x = x := by
    intro x hx
    obtain ⟨n, hn, rfl⟩ := hexOf_mem hx
    exact if_neg (hexDigit_range n hn).2.2
  rw [lowerCase_eq]
  conv => rhs; rw [← List.map_id (hexOf b)]
  exact List.map_congr_left this

theorem lower_upper (b : Bytes) : lowerCase (asciiUpper b) = lowerCase b := by
  simp only [lowerCase_eq, asciiUpper, List.map_map]
  apply List.map_congr_left
  intro x _
  exact forall_byte (P := fun x => (lowerChar ∘ fun x : UInt8 => if 97 ≤ x ∧ x ≤ 122 then x - 32 else x) x = lowerChar x)
    (by decide +kernel) x

theorem hexDecode_upper (b : Bytes) : hexDecode (asciiUpper (hexEncode b)) = some b := by
  rw [hexDecode_iff, lower_upper, hexEncode_eq, lowerCase_hexOf]

theorem hexText_ofAscii (b : Bytes) (h : ∀ x ∈ b, x < 128) : hexText (ofAscii b) = b := by
  unfold hexText ofAscii
  rw [String.toList_ofList, List.map_map]
  conv => rhs; rw [← List.map_id b]
  apply List.map_congr_left
  intro x hx
  have := h x hx
  revert this
  exact forall_byte (P := fun x => x < 128 → ((fun ch : Char => if ch.toNat < 128 then UInt8.ofNat ch.toNat else 255) ∘
    fun x : UInt8 => Char.ofNat x.toNat) x = id x) (by decide +kernel) x

theorem hexText_mem {s : String} {x : UInt8} (h : x ∈ hexText s) : x < 128 ∨ x = 255 := by
  simp only [hexText, List.mem_map] at h
  obtain ⟨ch, _, rfl⟩ := h
  split
  · rename_i h
    left
    rw [UInt8.lt_iff_toNat_lt, UInt8.toNat_ofNat']
    have : (128 : UInt8).toNat = 128 := rfl
    omega
  · right; rfl

theorem upperHex_ascii (b : Bytes) : ∀ x ∈ asciiUpper (hexEncode b), x < 128 := by
  rw [hexEncode_eq]
  simp only [asciiUpper, List.mem_map]
  rintro x ⟨y, hy, rfl⟩
  obtain ⟨n, hn, rfl⟩ := hexOf_mem hy
  exact (show ∀ n < 16, (if 97 ≤ hexDigit n ∧ hexDigit n ≤ 122 then hexDigit n - 32 else hexDigit n) < 128 by
    decide +kernel) n hn

/-- A hexadecimal member that was written is read back. -/
theorem hexField_hexToJson {n : Nat} (a : Arr n) : hexField n (hexToJson a.val) = some a := by
  have h : hexText (String.ofList ((asciiUpper (hexEncode a.val)).map fun x => Char.ofNat x.toNat)) =
      asciiUpper (hexEncode a.val) := hexText_ofAscii _ (upperHex_ascii _)
  simp only [hexField, hexToJson, Json.borrowed, Option.bind_eq_bind, Option.bind_some, h, hexDecode_upper, Arr.ofBytes?]
  rw [dif_pos a.property]

theorem hexField_doc {n : Nat} (t : Bytes) (ht : ∀ x ∈ t, x < 128) (a : Arr n) :
    hexField n (.str (ofAscii t) false) = some a ↔ lowerCase t = hexOf a.val := by
  simp only [hexField, Json.borrowed, Option.bind_eq_bind, Option.bind_some, hexText_ofAscii t ht,
    Option.bind_eq_some_iff, hexDecode_iff, Arr.ofBytes?]
  constructor
  · rintro ⟨b, hb, h⟩
    split at h
    · cases h; exact hb
    · cases h
  · intro h
    exact ⟨a.val, h, dif_pos a.property⟩

/-! ### Ethereum addresses -/

theorem filter_space_eq {t b : Bytes} (h : lowerCase (t.filter fun x => !isHexSpace x) = hexOf b)
    (hl : t.length = 2 * b.length) : t.filter (fun x => !isHexSpace x) = t := by
  have h1 := congrArg List.length h
  rw [hexOf_length] at h1
  simp only [lowerCase, List.length_map] at h1
  exact List.filter_eq_self.mpr (List.length_filter_eq_length_iff.mp (by omega))

theorem not_space {t b : Bytes} (h : lowerCase t = hexOf b) : t.filter (fun x => !isHexSpace x) = t := by
  rw [List.filter_eq_self]
  intro x hx
  have h1 : lowerChar x ∈ hexOf b := by rw [← h, lowerCase_eq]; exact List.mem_map_of_mem hx
  obtain ⟨n, hn, h2⟩ := hexOf_mem h1
  have h3 := forall_byte (P := fun x => ∀ n < 16, lowerChar x = hexDigit n → (!isHexSpace x) = true) (by decide +kernel) x
  exact h3 n hn h2

/-- Reading the digits behind the prefix. -/
def ethDigits (s : Bytes) : EthText :=
  if s.length ≠ 40 then .invalid
  else
    match rustcFromHex s with
    | none => .invalid
    | some raw => if h : raw.length = 20 then .address ⟨raw, h⟩ else .panic

theorem ethDigits_address (s : Bytes) (a : Arr 20) : ethDigits s = .address a ↔ lowerCase s = hexOf a.val := by
  unfold ethDigits
  constructor
  · intro h
    split at h
    · cases h
    · rename_i hl
      split at h
      · cases h
      · rename_i raw hr
        split at h
        · rename_i h20
          cases h
          unfold rustcFromHex at hr
          rw [hexDecode_iff] at hr
          rw [filter_space_eq hr (by omega)] at hr
          exact hr
        · cases h
  · intro h
    have hl := congrArg List.length h
    rw [hexOf_length, a.property] at hl
    have hl' : s.length = 40 := by simpa [lowerCase] using hl
    have : rustcFromHex s = some a.val := by
      unfold rustcFromHex
      rw [not_space h]; exact (hexDecode_iff _ _).mpr h
    rw [if_neg (by omega), this]
    simp [a.property]

theorem ethDigits_panic (s : Bytes) :
    ethDigits s = .panic ↔ s.length = 40 ∧ (∃ x ∈ s, isHexSpace x = true) ∧
      ∃ raw, lowerCase (s.filter fun x => !isHexSpace x) = hexOf raw := by
  unfold ethDigits
  constructor
  · intro h
    split at h
    · cases h
    · rename_i hl
      split at h
      · cases h
      · rename_i raw hr
        split at h
        · cases h
        · rename_i h20
          unfold rustcFromHex at hr
          refine ⟨by omega, ?_, raw, (hexDecode_iff _ _).mp hr⟩
          apply Decidable.byContradiction
          intro hn
          have : s.filter (fun x => !isHexSpace x) = s := by
            rw [List.filter_eq_self]
            intro x hx
            rw [Bool.not_eq_true']
            exact Bool.eq_false_iff.mpr fun hh => hn ⟨x, hx, hh⟩
          rw [this] at hr
          have := hexDecode_length hr
          omega
  · rintro ⟨hl, ⟨x, hx, hs⟩, raw, hr⟩
    rw [if_neg (by omega)]
    have h1 : rustcFromHex s = some raw := (hexDecode_iff _ _).mpr hr
    have h2 := hexDecode_length ((hexDecode_iff _ _).mpr hr)
    have h3 : (s.filter fun x => !isHexSpace x).length < s.length := by
      apply Nat.lt_of_le_of_ne (List.length_filter_le _ _)
      intro he
      have := List.length_filter_eq_length_iff.mp he x hx
      rw [hs] at this
      cases this
    rw [h1]
    simp only
    rw [dif_neg (by omega)]

theorem ethAddrOfText_eq (s : Bytes) :
    ethAddrOfText s = ethDigits (s.drop (if [48, 120].isPrefixOf s then 2 else 0)) := rfl

theorem ethAddrOfText_prefixed (t : Bytes) : ethAddrOfText ([48, 120] ++ t) = ethDigits t := by
  rw [ethAddrOfText_eq]
  simp [List.isPrefixOf]

theorem ethAddrOfText_plain (s : Bytes) (h : ∀ t, s ≠ [48, 120] ++ t) : ethAddrOfText s = ethDigits s := by
  rw [ethAddrOfText_eq]
  have : ([48, 120] : Bytes).isPrefixOf s = false := by
    rw [Bool.eq_false_iff]
    intro hp
    rw [List.isPrefixOf_iff_prefix] at hp
    obtain ⟨t, ht⟩ := hp
    exact h t ht.symm
  rw [this]; rfl

end Verif
