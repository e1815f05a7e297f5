import Verif.Model.Scale

/-!
# Facts about the encodings

`Exact c`: reading back what was written gives the value and the rest, and whatever can be read is what writing
would have produced.
-/

namespace Verif
namespace Scale

/-- Reading inverts writing, and writing inverts reading. -/
structure Exact {α : Type} (c : Codec α) : Prop where
  read : ∀ a r, c.fits a → c.dec (c.enc a ++ r) = some (a, r)
  only : ∀ i a r, c.dec i = some (a, r) → c.fits a ∧ i = c.enc a ++ r

theorem rdLE_iff (n : Nat) (b : Bytes) (v : Nat) (r : Bytes) :
    rdLE n b = some (v, r) ↔ v < 256 ^ n ∧ b = toLE n v ++ r := by
  unfold rdLE
  constructor
  · intro h
    split at h
    · rename_i hn
      simp only [Option.some.injEq, Prod.mk.injEq] at h
      obtain ⟨rfl, rfl⟩ := h
      have hl : (b.take n).length = n := by simp [hn]
      have h1 := leNat_lt (b.take n)
      have h2 := toLE_leNat (b.take n)
      rw [hl] at h1 h2
      exact ⟨h1, by rw [h2, List.take_append_drop]⟩
    · simp at h
  · rintro ⟨hv, rfl⟩
    rw [if_pos (by simp), List.take_left' (by simp), List.drop_left' (by simp), leNat_toLE _ _ hv]

theorem rdArr_iff (n : Nat) (b : Bytes) (a : Arr n) (r : Bytes) :
    rdArr n b = some (a, r) ↔ b = a.val ++ r := by
  unfold rdArr
  constructor
  · intro h
    split at h
    · simp only [Option.some.injEq, Prod.mk.injEq] at h
      obtain ⟨rfl, rfl⟩ := h
      simp
    · simp at h
  · rintro rfl
    have hl := a.property
    rw [dif_pos (by simp [hl])]
    simp only [Option.some.injEq, Prod.mk.injEq]
    exact ⟨Subtype.ext (List.take_left' hl), List.drop_left' hl⟩

theorem exact_arr (n : Nat) : Exact (arr n) where
  read a r _ := (rdArr_iff n _ a r).2 rfl
  only i a r h := ⟨trivial, (rdArr_iff n i a r).1 h⟩

theorem exact_le (n : Nat) : Exact (le n) where
  read a r h := (rdLE_iff n _ a r).2 ⟨h, rfl⟩
  only i a r h := (rdLE_iff n i a r).1 h

theorem exact_bool : Exact bool where
  read a r _ := by cases a <;> rfl
  only i a r h := by
    refine ⟨trivial, ?_⟩
    simp only [bool] at h ⊢
    split at h
    · simp only [Option.some.injEq, Prod.mk.injEq] at h
      obtain ⟨rfl, rfl⟩ := h; rfl
    · simp only [Option.some.injEq, Prod.mk.injEq] at h
      obtain ⟨rfl, rfl⟩ := h; rfl
    · simp at h

theorem exact_byte : Exact byte where
  read a r _ := rfl
  only i a r h := by
    refine ⟨trivial, ?_⟩
    cases i with
    | nil => simp [byte] at h
    | cons b i =>
      simp only [byte, Option.some.injEq, Prod.mk.injEq] at h
      obtain ⟨rfl, rfl⟩ := h; rfl

theorem exact_unit : Exact unit where
  read a r _ := rfl
  only i a r h := by
    refine ⟨trivial, ?_⟩
    simp only [unit, Option.some.injEq, Prod.mk.injEq] at h
    simpa [unit] using h.2

theorem exact_pair {α β : Type} {a : Codec α} {b : Codec β} (ha : Exact a) (hb : Exact b) :
    Exact (pair a b) where
  read p r h := by
    obtain ⟨x, y⟩ := p
    simp only [pair, List.append_assoc, ha.read x _ h.1, hb.read y _ h.2, Option.bind_eq_bind, Option.bind_some]
  only i p r h := by
    simp only [pair, Option.bind_eq_bind, Option.bind_eq_some_iff, Prod.exists, Option.some.injEq,
      Prod.mk.injEq] at h
    obtain ⟨x, i1, h1, y, i2, h2, rfl, rfl⟩ := h
    obtain ⟨f1, rfl⟩ := ha.only _ _ _ h1
    obtain ⟨f2, rfl⟩ := hb.only _ _ _ h2
    exact ⟨⟨f1, f2⟩, by simp [pair]⟩

theorem exact_opt {α : Type} {a : Codec α} (ha : Exact a) : Exact (opt a) where
  read o r h := by
    cases o with
    | none => rfl
    | some x => simp [opt, ha.read x r (h x rfl)]
  only i o r h := by
    simp only [opt] at h
    split at h
    · simp only [Option.some.injEq, Prod.mk.injEq] at h
      obtain ⟨rfl, rfl⟩ := h
      exact ⟨by simp [opt], rfl⟩
    · simp only [Option.map_eq_some_iff, Prod.exists, Prod.mk.injEq] at h
      obtain ⟨x, r', h1, rfl, rfl⟩ := h
      obtain ⟨f, rfl⟩ := ha.only _ _ _ h1
      exact ⟨by simpa [opt] using f, rfl⟩
    · simp at h

theorem exact_iso {α β : Type} {a : Codec α} {f : α → β} {g : β → α} (ha : Exact a) (hfg : ∀ y, f (g y) = y)
    (hgf : ∀ x, g (f x) = x) : Exact (iso a f g) where
  read y r h := by simp [iso, ha.read (g y) r h, hfg]
  only i y r h := by
    simp only [iso, Option.map_eq_some_iff, Prod.exists, Prod.mk.injEq] at h
    obtain ⟨x, r', h1, rfl, rfl⟩ := h
    obtain ⟨f1, rfl⟩ := ha.only _ _ _ h1
    simp only [iso, hgf]
    exact ⟨f1, trivial⟩

/-! ### Compact integers -/

theorem ofNat_toNat_of_lt {n : Nat} (h : n < 256) : (UInt8.ofNat n).toNat = n := by
  simp [UInt8.toNat_ofNat', Nat.mod_eq_of_lt h]

theorem toLE_head (n v : Nat) (h : 0 < n) : ∃ t, toLE n v = UInt8.ofNat (v % 256) :: t := by
  cases n with
  | zero => omega
  | succ n => exact ⟨_, rfl⟩

theorem log2_bytes (v : Nat) (h : 2 ^ 30 ≤ v) :
    v < 256 ^ (Nat.log2 v / 8 + 1) ∧ 4 ≤ Nat.log2 v / 8 + 1 ∧ 256 ^ (Nat.log2 v / 8) ≤ v := by
  have hv : v ≠ 0 := by intro e; subst e; simp at h
  have e256 : ∀ k, 256 ^ k = 2 ^ (8 * k) := fun k => by rw [Nat.pow_mul]
  refine ⟨?_, ?_, ?_⟩
  · rw [e256]
    refine Nat.lt_of_lt_of_le (Nat.lt_log2_self (n := v)) (Nat.pow_le_pow_right (by decide) ?_)
    omega
  · have : 30 ≤ Nat.log2 v := (Nat.le_log2 hv).2 h
    omega
  · rw [e256]
    refine Nat.le_trans (Nat.pow_le_pow_right (by decide) ?_) (Nat.log2_self_le hv)
    omega

theorem bytes_unique {v n m : Nat} (h1 : v < 256 ^ (n + 1)) (h2 : 256 ^ n ≤ v) (h3 : v < 256 ^ (m + 1))
    (h4 : 256 ^ m ≤ v) : n = m := by
  have a : n < m + 1 := (Nat.pow_lt_pow_iff_right (a := 256) (by decide)).1 (Nat.lt_of_le_of_lt h2 h3)
  have b : m < n + 1 := (Nat.pow_lt_pow_iff_right (a := 256) (by decide)).1 (Nat.lt_of_le_of_lt h4 h1)
  omega

theorem compact_read (w v : Nat) (r : Bytes) (hw : 4 ≤ w) (hw' : w ≤ 67) (h : v < 256 ^ w) :
    compactDec w (compactEnc v ++ r) = some (v, r) := by
  unfold compactEnc
  split
  · rename_i h6
    have : (UInt8.ofNat (v * 4)).toNat = v * 4 := ofNat_toNat_of_lt (by omega)
    simp only [List.cons_append, List.nil_append, compactDec, this]
    rw [show v * 4 % 4 = 0 by omega]
    simp
  · split
    · rename_i h6 h14
      obtain ⟨t, ht⟩ := toLE_head 2 (v * 4 + 1) (by decide)
      have hd : rdLE 2 (toLE 2 (v * 4 + 1) ++ r) = some (v * 4 + 1, r) := (rdLE_iff _ _ _ _).2 ⟨by omega, rfl⟩
      rw [ht] at hd ⊢
      simp only [List.cons_append] at hd ⊢
      simp only [compactDec]
      rw [ofNat_toNat_of_lt (Nat.mod_lt _ (by decide)), show (v * 4 + 1) % 256 % 4 = 1 by omega, hd]
      simp only [Option.bind_eq_bind, Option.bind_some]
      rw [show (v * 4 + 1) / 4 = v by omega, if_pos (by omega)]
    · split
      · rename_i h6 h14 h30
        obtain ⟨t, ht⟩ := toLE_head 4 (v * 4 + 2) (by decide)
        have hd : rdLE 4 (toLE 4 (v * 4 + 2) ++ r) = some (v * 4 + 2, r) := (rdLE_iff _ _ _ _).2 ⟨by omega, rfl⟩
        rw [ht] at hd ⊢
        simp only [List.cons_append] at hd ⊢
        simp only [compactDec]
        rw [ofNat_toNat_of_lt (Nat.mod_lt _ (by decide)), show (v * 4 + 2) % 256 % 4 = 2 by omega, hd]
        simp only [Option.bind_eq_bind, Option.bind_some]
        rw [show (v * 4 + 2) / 4 = v by omega, if_pos (by omega)]
      · rename_i h6 h14 h30
        obtain ⟨b1, b2, b3⟩ := log2_bytes v (by omega)
        have hn : Nat.log2 v / 8 + 1 ≤ w := by
          have : Nat.log2 v / 8 < w :=
            (Nat.pow_lt_pow_iff_right (a := 256) (by decide)).1 (Nat.lt_of_le_of_lt b3 h)
          omega
        generalize Nat.log2 v / 8 = k at b1 b2 b3 hn
        have hp : (UInt8.ofNat ((k + 1 - 4) * 4 + 3)).toNat = (k + 1 - 4) * 4 + 3 := ofNat_toNat_of_lt (by omega)
        have hd : rdLE (k + 1) (toLE (k + 1) v ++ r) = some (v, r) := (rdLE_iff _ _ _ _).2 ⟨b1, rfl⟩
        simp only [List.cons_append, compactDec, hp]
        rw [show ((k + 1 - 4) * 4 + 3) % 4 = 3 by omega]
        simp only []
        rw [show ((k + 1 - 4) * 4 + 3) / 4 + 4 = k + 1 by omega, if_pos hn, hd]
        simp only [Option.bind_eq_bind, Option.bind_some, Nat.add_sub_cancel]
        rw [if_pos]
        split <;> omega

theorem compact_only (w : Nat) (i : Bytes) (v : Nat) (r : Bytes) (hw : 4 ≤ w)
    (h : compactDec w i = some (v, r)) : v < 256 ^ w ∧ i = compactEnc v ++ r := by
  cases i with
  | nil => simp [compactDec] at h
  | cons p b =>
    have hp := p.toNat_lt
    have hw4 : 256 ^ 4 ≤ 256 ^ w := Nat.pow_le_pow_right (by decide) hw
    have e4 : (256 : Nat) ^ 4 = 2 ^ 32 := by decide
    simp only [compactDec] at h
    split at h
    · rename_i hm
      simp only [Option.some.injEq, Prod.mk.injEq] at h
      obtain ⟨rfl, rfl⟩ := h
      refine ⟨by omega, ?_⟩
      rw [compactEnc, if_pos (by omega), show p.toNat / 4 * 4 = p.toNat by omega]
      simp
    · rename_i hm
      simp only [Option.bind_eq_bind, Option.bind_eq_some_iff, Prod.exists] at h
      obtain ⟨x, r', hx, h⟩ := h
      split at h
      · rename_i h6
        simp only [Option.some.injEq, Prod.mk.injEq] at h
        obtain ⟨rfl, rfl⟩ := h
        obtain ⟨x1, x2⟩ := (rdLE_iff _ _ _ _).1 hx
        have hx4 : x % 4 = 1 := by
          obtain ⟨t, ht⟩ := toLE_head 2 x (by decide)
          rw [ht] at x2
          simp only [List.cons_append, List.cons.injEq] at x2
          have := congrArg UInt8.toNat x2.1
          rw [ofNat_toNat_of_lt (Nat.mod_lt _ (by decide))] at this
          omega
        refine ⟨by omega, ?_⟩
        rw [compactEnc, if_neg (by omega), if_pos (by omega), show x / 4 * 4 + 1 = x by omega]
        exact x2
      · simp at h
    · rename_i hm
      simp only [Option.bind_eq_bind, Option.bind_eq_some_iff, Prod.exists] at h
      obtain ⟨x, r', hx, h⟩ := h
      split at h
      · rename_i h14
        simp only [Option.some.injEq, Prod.mk.injEq] at h
        obtain ⟨rfl, rfl⟩ := h
        obtain ⟨x1, x2⟩ := (rdLE_iff _ _ _ _).1 hx
        have hx4 : x % 4 = 2 := by
          obtain ⟨t, ht⟩ := toLE_head 4 x (by decide)
          rw [ht] at x2
          simp only [List.cons_append, List.cons.injEq] at x2
          have := congrArg UInt8.toNat x2.1
          rw [ofNat_toNat_of_lt (Nat.mod_lt _ (by decide))] at this
          omega
        refine ⟨by omega, ?_⟩
        rw [compactEnc, if_neg (by omega), if_neg (by omega), if_pos (by omega), show x / 4 * 4 + 2 = x by omega]
        exact x2
      · simp at h
    · rename_i hm0 hm1 hm2
      have hm : p.toNat % 4 = 3 := by
        have := Nat.mod_lt p.toNat (show 4 > 0 by decide)
        have a0 : p.toNat % 4 ≠ 0 := hm0
        have a1 : p.toNat % 4 ≠ 1 := hm1
        have a2 : p.toNat % 4 ≠ 2 := hm2
        omega
      simp only [Option.bind_eq_bind] at h
      split at h
      · rename_i hn
        simp only [Option.bind_eq_some_iff, Prod.exists] at h
        obtain ⟨x, r', hx, h⟩ := h
        by_cases hlow : (if p.toNat / 4 + 4 = 4 then 2 ^ 30 else 256 ^ (p.toNat / 4 + 4 - 1)) ≤ x
        · rw [if_pos hlow] at h
          simp only [Option.some.injEq, Prod.mk.injEq] at h
          obtain ⟨rfl, rfl⟩ := h
          obtain ⟨x1, x2⟩ := (rdLE_iff _ _ _ _).1 hx
          have e3 : (256 : Nat) ^ 3 = 2 ^ 24 := by decide
          have h30 : 2 ^ 30 ≤ x := by
            split at hlow
            · exact hlow
            · rename_i h4
              refine Nat.le_trans ?_ hlow
              refine Nat.le_trans ?_ (Nat.pow_le_pow_right (by decide) (show 4 ≤ p.toNat / 4 + 4 - 1 by omega))
              decide
          have hlow' : 256 ^ (p.toNat / 4 + 3) ≤ x := by
            split at hlow
            · rename_i h4
              rw [show p.toNat / 4 + 3 = 3 by omega]
              omega
            · simpa using hlow
          obtain ⟨b1, b2, b3⟩ := log2_bytes x h30
          have hk : Nat.log2 x / 8 = p.toNat / 4 + 3 := bytes_unique b1 b3 x1 hlow'
          refine ⟨Nat.lt_of_lt_of_le x1 (Nat.pow_le_pow_right (by decide) hn), ?_⟩
          rw [compactEnc, if_neg (by omega), if_neg (by omega), if_neg (by omega)]
          simp only [hk]
          rw [show (p.toNat / 4 + 3 + 1 - 4) * 4 + 3 = p.toNat by omega, x2]
          simp
        · rw [if_neg hlow] at h
          simp at h
      · simp at h

theorem exact_compact (w : Nat) (hw : 4 ≤ w) (hw' : w ≤ 67) : Exact (compact w) where
  read a r h := compact_read w a r hw hw' h
  only i a r h := compact_only w i a r hw h

/-! ### Vectors -/

theorem decN_read {α : Type} {a : Codec α} (ha : Exact a) (l : List α) (r : Bytes) (h : ∀ x ∈ l, a.fits x) :
    decN a l.length (l.flatMap a.enc ++ r) = some (l, r) := by
  induction l with
  | nil => rfl
  | cons x l ih =>
    simp only [List.length_cons, decN, List.flatMap_cons, List.append_assoc]
    rw [ha.read x _ (h x (by simp))]
    simp only [Option.bind_eq_bind, Option.bind_some]
    rw [ih fun y hy => h y (by simp [hy])]
    rfl

theorem decN_only {α : Type} {a : Codec α} (ha : Exact a) (n : Nat) (i : Bytes) (l : List α) (r : Bytes)
    (h : decN a n i = some (l, r)) : l.length = n ∧ (∀ x ∈ l, a.fits x) ∧ i = l.flatMap a.enc ++ r := by
  induction n generalizing i l with
  | zero =>
    simp only [decN, Option.some.injEq, Prod.mk.injEq] at h
    obtain ⟨rfl, rfl⟩ := h
    simp
  | succ n ih =>
    simp only [decN, Option.bind_eq_bind, Option.bind_eq_some_iff, Prod.exists, Option.some.injEq,
      Prod.mk.injEq] at h
    obtain ⟨x, i1, h1, xs, i2, h2, rfl, rfl⟩ := h
    obtain ⟨f1, rfl⟩ := ha.only _ _ _ h1
    obtain ⟨l2, f2, rfl⟩ := ih _ _ h2
    refine ⟨by simp [l2], ?_, by simp⟩
    intro y hy
    rcases List.mem_cons.1 hy with rfl | hy
    · exact f1
    · exact f2 y hy

theorem exact_vec {α : Type} {a : Codec α} (ha : Exact a) : Exact (vec a) where
  read l r h := by
    simp only [vec, List.append_assoc]
    rw [compact_read 4 _ _ (by decide) (by decide) h.1]
    simp only [Option.bind_eq_bind, Option.bind_some]
    exact decN_read ha l r h.2
  only i l r h := by
    simp only [vec, Option.bind_eq_bind, Option.bind_eq_some_iff, Prod.exists] at h
    obtain ⟨n, i1, h1, h2⟩ := h
    obtain ⟨n1, rfl⟩ := compact_only 4 _ _ _ (by decide) h1
    obtain ⟨rfl, f, rfl⟩ := decN_only ha _ _ _ _ h2
    exact ⟨⟨n1, f⟩, by simp [vec]⟩

theorem exact_bytes : Exact bytes := exact_vec exact_byte

theorem exact_bounded {α : Type} {a : Codec α} {n : Nat} (ha : Exact a) : Exact (bounded a n) where
  read l r h := by
    simp only [bounded, (exact_vec ha).read l r h.1, Option.bind_eq_bind, Option.bind_some]
    rw [if_pos h.2]
  only i l r h := by
    simp only [bounded, Option.bind_eq_bind, Option.bind_eq_some_iff, Prod.exists] at h
    obtain ⟨l', i1, h1, h2⟩ := h
    split at h2
    · rename_i hl
      simp only [Option.some.injEq, Prod.mk.injEq] at h2
      obtain ⟨rfl, rfl⟩ := h2
      obtain ⟨f, rfl⟩ := (exact_vec ha).only _ _ _ h1
      exact ⟨⟨f, hl⟩, rfl⟩
    · simp at h2

/-! ### Enums -/

/-- What is needed of the variants of an enum: exact fields, building and recognising match, no two variants
with the same index, no value of two variants. -/
structure VariantsOk {α : Type} (vs : List (Variant α)) : Prop where
  fields : ∀ v ∈ vs, Exact v.codec
  un_make : ∀ v ∈ vs, ∀ x, v.un (v.make x) = some x
  make_un : ∀ v ∈ vs, ∀ a x, v.un a = some x → v.make x = a
  apart : vs.Pairwise fun v u => v.tag ≠ u.tag ∧ ∀ a, v.un a = none ∨ u.un a = none

theorem enum_find {α : Type} {vs : List (Variant α)} {v : Variant α} {a : α} {x : v.Fields} (hv : v ∈ vs)
    (hx : v.un a = some x) (hp : vs.Pairwise fun v u => v.tag ≠ u.tag ∧ ∀ a, v.un a = none ∨ u.un a = none) :
    (vs.findSome? fun v => v.enc? a) = some (v.tag :: v.codec.enc x) ∧
      (vs.find? fun u => u.tag == v.tag) = some v := by
  induction vs with
  | nil => simp at hv
  | cons u vs ih =>
    rw [List.pairwise_cons] at hp
    rcases List.mem_cons.1 hv with rfl | hv'
    · simp [Variant.enc?, hx]
    · obtain ⟨h1, h2⟩ := hp.1 v hv'
      have hu : u.un a = none := by
        rcases h2 a with h | h
        · exact h
        · rw [hx] at h; simp at h
      obtain ⟨e1, e2⟩ := ih hv' hp.2
      refine ⟨?_, ?_⟩
      · rw [List.findSome?_cons, show u.enc? a = none by simp [Variant.enc?, hu]]
        exact e1
      · rw [List.find?_cons, show (u.tag == v.tag) = false by simpa using h1]
        exact e2

theorem exact_enum {α : Type} {vs : List (Variant α)} (ok : VariantsOk vs) : Exact (enum vs) where
  read a r h := by
    obtain ⟨v, hv, x, hx, hf⟩ := h
    obtain ⟨e1, e2⟩ := enum_find hv hx ok.apart
    simp only [enum, e1, Option.getD_some, List.cons_append, e2, (ok.fields v hv).read x r hf, Option.map_some,
      ok.make_un v hv a x hx]
  only i a r h := by
    cases i with
    | nil => simp [enum] at h
    | cons t i =>
      simp only [enum] at h
      split at h
      · simp at h
      · rename_i v hf
        have hv := List.mem_of_find?_eq_some hf
        have ht : v.tag = t := by simpa using List.find?_some hf
        simp only [Option.map_eq_some_iff, Prod.exists, Prod.mk.injEq] at h
        obtain ⟨x, r', h1, rfl, rfl⟩ := h
        obtain ⟨fx, rfl⟩ := (ok.fields v hv).only _ _ _ h1
        have hx := ok.un_make v hv x
        obtain ⟨e1, e2⟩ := enum_find hv hx ok.apart
        refine ⟨⟨v, hv, x, hx, fx⟩, ?_⟩
        simp [enum, e1, ht]

/-! ### The types of /repo -/

/-- The fields of the known codecs. -/
macro "exact_field" : tactic => `(tactic| first
  | exact exact_arr _ | exact exact_le _ | exact exact_bool | exact exact_unit | exact exact_bytes
  | exact exact_byte | assumption)

/-- The conditions on the variants of an enum, all but the exactness of the fields. -/
macro "variants" : tactic => `(tactic| (
  refine ⟨?_, ?_, ?_, ?_⟩
  rotate_left
  · simp only [List.mem_cons, List.not_mem_nil, or_false, forall_eq_or_imp, forall_eq]
    and_intros <;> (intro x; first | rfl | trivial)
  · simp only [List.mem_cons, List.not_mem_nil, or_false, forall_eq_or_imp, forall_eq]
    and_intros <;> (intro a x h; split at h <;> first | (cases h; rfl) | cases h)
  · simp only [List.pairwise_cons, List.mem_cons, List.not_mem_nil, or_false, forall_eq_or_imp, forall_eq,
      false_implies, implies_true, List.Pairwise.nil, and_true] <;> and_intros <;> first
      | decide
      | (intro a
         cases a <;> first
           | exact Or.inl rfl
           | exact Or.inr rfl
           | (rename_i k; cases k <;> first | exact Or.inl rfl | exact Or.inr rfl))
  simp only [List.mem_cons, List.not_mem_nil, or_false, forall_eq_or_imp, forall_eq]))

theorem exact_multiSigner : Exact multiSigner := by
  refine exact_enum ?_
  variants
  and_intros <;> exact_field

theorem exact_anySigner : Exact anySigner := by
  refine exact_enum ?_
  variants
  exact ⟨exact_bounded exact_byte, exact_multiSigner⟩

theorem exact_buildMode : Exact buildMode := by
  refine exact_enum ?_
  variants
  and_intros <;> exact_field

theorem exact_attestationMethod : Exact attestationMethod := by
  refine exact_enum ?_
  variants
  and_intros <;> exact_field

theorem exact_sgxStatus : Exact sgxStatus := by
  refine exact_enum ?_
  variants
  and_intros <;> exact_field

theorem exact_tcbStatus : Exact tcbStatus := by
  refine exact_enum ?_
  variants
  and_intros <;> exact_field

theorem exact_sgxEnclave : Exact sgxEnclave :=
  exact_iso (exact_pair (exact_arr _) <| exact_pair (exact_arr _) <| exact_pair (exact_arr _) <|
    exact_pair (exact_le _) <| exact_pair (exact_opt exact_bytes) <| exact_pair exact_buildMode <|
    exact_pair exact_attestationMethod exact_sgxStatus) (fun _ => rfl) (fun _ => rfl)

theorem exact_multiEnclave : Exact multiEnclave := by
  refine exact_enum ?_
  refine ⟨?_, ?_, ?_, ?_⟩
  · simp only [List.mem_cons, List.not_mem_nil, or_false, forall_eq]
    exact exact_sgxEnclave
  · simp only [List.mem_cons, List.not_mem_nil, or_false, forall_eq]
    intro x; rfl
  · simp only [List.mem_cons, List.not_mem_nil, or_false, forall_eq]
    intro a x h
    cases h; rfl
  · simp

theorem exact_quotingEnclave : Exact quotingEnclave :=
  exact_iso (exact_pair (exact_le _) <| exact_pair (exact_le _) <| exact_pair (exact_arr _) <|
    exact_pair (exact_arr _) <| exact_pair (exact_arr _) <| exact_pair (exact_arr _) <|
    exact_pair (exact_arr _) <| exact_pair (exact_le _) (exact_vec (exact_le _))) (fun _ => rfl) (fun _ => rfl)

theorem exact_tcbVersionStatus : Exact tcbVersionStatus :=
  exact_iso (exact_pair (exact_arr _) <| exact_pair (exact_le _) exact_tcbStatus) (fun _ => rfl) (fun _ => rfl)

theorem exact_tcbInfoOnChain : Exact tcbInfoOnChain :=
  exact_iso (exact_pair (exact_le _) <| exact_pair (exact_le _) (exact_vec exact_tcbVersionStatus))
    (fun _ => rfl) (fun _ => rfl)

theorem exact_instanceAddress : Exact instanceAddress :=
  exact_iso (exact_pair (exact_arr _) <| exact_pair (exact_arr _) exact_anySigner) (fun _ => rfl) (fun _ => rfl)

theorem exact_teerDayBond (w : Widths) : Exact (teerDayBond w) :=
  exact_iso (exact_pair (exact_le _) <| exact_pair (exact_le _) (exact_le _)) (fun _ => rfl) (fun _ => rfl)

theorem exact_pendingUnlock (w : Widths) : Exact (pendingUnlock w) := exact_pair (exact_le _) (exact_le _)

theorem exact_signerStatus (w : Widths) : Exact (signerStatus w) :=
  exact_iso (exact_pair (exact_arr _) <| exact_pair (exact_arr _) (exact_le _)) (fun _ => rfl) (fun _ => rfl)

theorem exact_signerStatusVec (w : Widths) : Exact (signerStatusVec w) := exact_bounded (exact_signerStatus w)

theorem exact_shardConfig : Exact shardConfig :=
  exact_iso (exact_pair (exact_arr _) <| exact_pair (exact_opt (exact_le _)) <|
    exact_pair (exact_opt (exact_vec (exact_arr _))) exact_bool) (fun _ => rfl) (fun _ => rfl)

theorem exact_upgradableShardConfig (w : Widths) : Exact (upgradableShardConfig w) :=
  exact_iso (exact_pair exact_shardConfig <| exact_pair (exact_opt exact_shardConfig) (exact_opt (exact_le _)))
    (fun _ => rfl) (fun _ => rfl)

theorem exact_confirmation : Exact confirmation :=
  exact_iso (exact_pair (exact_le _) (exact_arr _)) (fun _ => rfl) (fun _ => rfl)

theorem exact_statementKind : Exact statementKind := by
  refine exact_enum ?_
  variants
  and_intros <;> exact_field

theorem exact_vestingInfo (w : Widths) : Exact (vestingInfo w) :=
  exact_iso (exact_pair (exact_le _) <| exact_pair (exact_le _) (exact_le _)) (fun _ => rfl) (fun _ => rfl)

theorem exact_teerdaysCall (w : Widths) (h : 4 ≤ w.bal) (h' : w.bal ≤ 67) : Exact (teerdaysCall w) := by
  refine exact_enum ?_
  variants
  have := exact_compact w.bal h h'
  and_intros <;> exact_field

theorem exact_teerexCall : Exact teerexCall := by
  refine exact_enum ?_
  variants
  exact ⟨exact_pair exact_bytes (exact_pair (exact_opt exact_bytes) exact_attestationMethod), exact_arr _,
    exact_instanceAddress, exact_pair exact_bytes (exact_pair exact_bytes exact_bytes),
    exact_pair exact_bytes (exact_pair exact_bytes exact_bytes), exact_pair exact_bool exact_bool⟩

theorem exact_bridgeCall (w : Widths) : Exact (bridgeCall w) := by
  refine exact_enum ?_
  variants
  exact ⟨exact_pair (exact_arr _) exact_bytes,
    exact_pair (exact_arr _) (exact_pair (exact_arr _) (exact_pair (exact_le _) (exact_arr _))),
    exact_pair (exact_arr _) (exact_pair exact_bytes (exact_le _)),
    exact_pair (exact_arr _) (exact_pair (exact_arr _) (exact_pair (exact_le _) (exact_arr _))),
    exact_pair (exact_arr _) (exact_pair (exact_vec (exact_arr _)) exact_bytes),
    exact_pair (exact_arr _) (exact_pair exact_shardConfig (exact_le _)), exact_pair (exact_arr _) (exact_arr _)⟩

theorem exact_sidechainCall : Exact sidechainCall := by
  refine exact_enum ?_
  variants
  exact exact_pair (exact_arr _) (exact_pair (exact_opt exact_confirmation) exact_confirmation)

theorem exact_teeracleCall (m : Nat) : Exact (teeracleCall m) := by
  refine exact_enum ?_
  variants
  exact ⟨exact_pair exact_bytes (exact_arr _), exact_pair exact_bytes (exact_arr _),
    exact_pair exact_bytes (exact_pair exact_bytes (exact_bounded exact_byte)),
    exact_pair exact_bytes (exact_pair exact_bytes (exact_opt (exact_le _)))⟩

theorem exact_claimsCall (w : Widths) : Exact (claimsCall w) := by
  refine exact_enum ?_
  variants
  exact ⟨exact_pair (exact_arr _) (exact_arr _),
    exact_pair (exact_arr _) (exact_pair (exact_le _) (exact_pair (exact_opt (exact_vestingInfo w))
      (exact_opt exact_statementKind))),
    exact_pair (exact_arr _) (exact_pair (exact_arr _) exact_bytes), exact_bytes,
    exact_pair (exact_arr _) (exact_pair (exact_arr _) (exact_opt (exact_arr _)))⟩

theorem exact_assetRegistryCall (w : Widths) {loc : Codec Location} (h : Exact loc) :
    Exact (assetRegistryCall w loc) := by
  refine exact_enum ?_
  variants
  exact ⟨exact_pair (exact_le _) h, exact_le _⟩

theorem exact_xcmTransactorCall : Exact xcmTransactorCall := by
  refine exact_enum ?_
  variants
  exact exact_pair (exact_le _) (exact_pair (exact_le _) (exact_pair
    (exact_pair (exact_compact 8 (by decide) (by decide)) (exact_compact 8 (by decide) (by decide))) (exact_le _)))

end Scale
end Verif
