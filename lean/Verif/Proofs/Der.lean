import Verif.Spec.Der
import Verif.Model.SgxVerify
import Verif.Proofs.Inversion

/-!
# DER encoding of signatures
-/

namespace Verif

theorem leNat_append (a b : Bytes) : leNat (a ++ b) = leNat a + 256 ^ a.length * leNat b := by
  induction a with
  | nil => simp [leNat]
  | cons x a ih =>
    simp only [List.cons_append, leNat, ih, List.length_cons, Nat.pow_succ, Nat.mul_add]
    rw [Nat.mul_comm (256 ^ a.length) 256, Nat.mul_assoc]
    omega

theorem beNat_cons (x : UInt8) (a : Bytes) : beNat (x :: a) = 256 ^ a.length * x.toNat + beNat a := by
  simp only [beNat, List.reverse_cons, leNat_append, List.length_reverse, leNat, Nat.mul_zero, Nat.add_zero]
  omega

theorem beNat_lt (a : Bytes) : beNat a < 256 ^ a.length := by
  have := leNat_lt a.reverse
  simpa [beNat] using this

theorem beNat_inj {a b : Bytes} (hl : a.length = b.length) (h : beNat a = beNat b) : a = b :=
  List.reverse_inj.mp (leNat_inj (by simpa using hl) h)

theorem stripZeros_length (b : Bytes) : (stripZeros b).length ≤ b.length := by
  induction b with
  | nil => simp [stripZeros]
  | cons x b ih =>
    cases b with
    | nil => simp [stripZeros]
    | cons y b =>
      simp only [stripZeros]
      split
      · exact Nat.le_trans ih (by simp)
      · exact Nat.le_refl _

theorem stripZeros_ne (b : Bytes) (h : b ≠ []) : stripZeros b ≠ [] := by
  induction b with
  | nil => exact absurd rfl h
  | cons x b ih =>
    cases b with
    | nil => simp [stripZeros]
    | cons y b =>
      simp only [stripZeros]
      split
      · exact ih (by simp)
      · simp

theorem stripZeros_beNat (b : Bytes) : beNat (stripZeros b) = beNat b := by
  induction b with
  | nil => simp [stripZeros]
  | cons x b ih =>
    cases b with
    | nil => simp [stripZeros]
    | cons y b =>
      simp only [stripZeros]
      split
      · rename_i h0
        rw [ih, beNat_cons x, h0]
        simp
      · rfl

theorem stripZeros_minimal (b : Bytes) (x y : UInt8) (r : Bytes) (h : stripZeros b = x :: y :: r) : x ≠ 0 := by
  induction b with
  | nil => simp [stripZeros] at h
  | cons u b ih =>
    cases b with
    | nil => simp [stripZeros] at h
    | cons v b =>
      simp only [stripZeros] at h
      split at h
      · exact ih h
      · rename_i h0
        simp only [List.cons.injEq] at h
        rw [← h.1]; exact h0

theorem derUInt_spec (b : Bytes) (h0 : b ≠ []) (hl : b.length ≤ 32) :
    Der.IsUInt (beNat b) (derUInt b) ∧ (derUInt b).length ≤ 35 := by
  have h1 := stripZeros_length b
  have h2 := stripZeros_ne b h0
  have h3 := stripZeros_beNat b
  have h4 := stripZeros_minimal b
  unfold derUInt
  generalize stripZeros b = s at *
  obtain ⟨x, r, rfl⟩ := List.exists_cons_of_ne_nil h2
  simp only [List.headD_cons, List.length_cons] at *
  by_cases hx : x ≥ 0x80
  · simp only [hx, if_true, List.length_cons, List.cons_append, List.nil_append]
    have hlen : (UInt8.ofNat (r.length + 1 + 1)).toNat = r.length + 1 + 1 := by
      simp only [UInt8.toNat_ofNat']; omega
    refine ⟨⟨_, 0, x :: r, rfl, by simpa using hlen, ?_, ?_, by decide, ?_⟩, by omega⟩
    · rw [UInt8.lt_iff_toNat_lt, hlen]; simp; omega
    · rw [beNat_cons, h3]; simp
    · intro a rest e _
      simp only [List.cons.injEq] at e
      rw [← e.1]; exact hx
  · simp only [hx, if_false, List.length_cons, List.cons_append, List.nil_append]
    have hlen : (UInt8.ofNat (r.length + 1)).toNat = r.length + 1 := by
      simp only [UInt8.toNat_ofNat']; omega
    refine ⟨⟨_, x, r, rfl, by simpa using hlen, ?_, h3, ?_, ?_⟩, by omega⟩
    · rw [UInt8.lt_iff_toNat_lt, hlen]; simp; omega
    · rw [ge_iff_le, UInt8.le_iff_toNat_le] at hx
      rw [UInt8.lt_iff_toNat_lt]; omega
    · intro a rest e ex
      subst e
      exact absurd ex (h4 x a rest rfl)

/-- Bounds on the value of a shortest content. -/
theorem minimal_bounds (x : UInt8) (r : Bytes) (hx : x < 0x80) (hm : ∀ y q, r = y :: q → x = 0 → 0x80 ≤ y) :
    2 * beNat (x :: r) < 256 ^ (r.length + 1) ∧ (r ≠ [] → 256 ^ r.length ≤ 2 * beNat (x :: r)) := by
  rw [UInt8.lt_iff_toNat_lt] at hx
  have hx' : x.toNat < 128 := hx
  have hr := beNat_lt r
  rw [beNat_cons, Nat.pow_succ]
  refine ⟨?_, fun hne => ?_⟩
  · have : 256 ^ r.length * x.toNat ≤ 256 ^ r.length * 127 := Nat.mul_le_mul_left _ (by omega)
    omega
  · by_cases h0 : x = 0
    · obtain ⟨y, q, rfl⟩ := List.exists_cons_of_ne_nil hne
      have hy := hm y q rfl h0
      rw [UInt8.le_iff_toNat_le] at hy
      have hy' : 128 ≤ y.toNat := hy
      rw [beNat_cons, List.length_cons, Nat.pow_succ]
      have : 256 ^ q.length * 128 ≤ 256 ^ q.length * y.toNat := Nat.mul_le_mul_left _ hy'
      omega
    · have : 1 ≤ x.toNat := by
        rcases Nat.eq_zero_or_pos x.toNat with h | h
        · exact absurd (UInt8.toNat_inj.mp (by simpa using h)) h0
        · exact h
      have : 256 ^ r.length * 1 ≤ 256 ^ r.length * x.toNat := Nat.mul_le_mul_left _ this
      omega

/-- The DER encoding of a number is unique. -/
theorem isUInt_unique {n : Nat} {a b : Bytes} (ha : Der.IsUInt n a) (hb : Der.IsUInt n b) : a = b := by
  obtain ⟨l, x, r, rfl, hl, _, hn, hx, hm⟩ := ha
  obtain ⟨l', x', r', rfl, hl', _, hn', hx', hm'⟩ := hb
  have h1 := minimal_bounds x r hx hm
  have h2 := minimal_bounds x' r' hx' hm'
  rw [hn] at h1
  rw [hn'] at h2
  have key : ∀ i j : Nat, 2 * n < 256 ^ (i + 1) → (j ≠ 0 → 256 ^ j ≤ 2 * n) → j ≤ i := by
    intro i j h h'
    rcases Nat.lt_or_ge i j with hij | hij
    · have h3 := h' (by omega)
      have : 256 ^ (i + 1) ≤ 256 ^ j := Nat.pow_le_pow_right (by omega) hij
      omega
    · exact hij
  have e : r.length = r'.length := Nat.le_antisymm
    (key _ _ h2.1 fun h => h1.2 (by intro h'; rw [h'] at h; exact h rfl))
    (key _ _ h1.1 fun h => h2.2 (by intro h'; rw [h'] at h; exact h rfl))
  have e2 : x :: r = x' :: r' := beNat_inj (by simp [e]) (by rw [hn, hn'])
  have e3 : l = l' := UInt8.toNat_inj.mp (by rw [hl, hl']; simp [e])
  rw [e2, e3]

theorem isSignature_unique {r s : Nat} {a b : Bytes} (ha : Der.IsSignature r s a) (hb : Der.IsSignature r s b) :
    a = b := by
  obtain ⟨l, x, y, hx, hy, rfl, hl, _⟩ := ha
  obtain ⟨l', x', y', hx', hy', rfl, hl', _⟩ := hb
  rw [isUInt_unique hx hx', isUInt_unique hy hy'] at *
  rw [UInt8.toNat_inj.mp (hl.trans hl'.symm)]

/-- Encodings of numbers are self-delimiting. -/
theorem isUInt_append {n n' : Nat} {a a' b b' : Bytes} (ha : Der.IsUInt n a) (ha' : Der.IsUInt n' a')
    (h : a ++ b = a' ++ b') : n = n' ∧ a = a' ∧ b = b' := by
  obtain ⟨l, x, r, rfl, hl, _, hn, _⟩ := ha
  obtain ⟨l', x', r', rfl, hl', _, hn', _⟩ := ha'
  simp only [List.cons_append, List.cons.injEq, true_and] at h
  obtain ⟨rfl, h⟩ := h
  have e : (x :: r) ++ b = (x' :: r') ++ b' := by simpa using h
  obtain ⟨e1, e2⟩ := List.append_inj e (by rw [← hl, ← hl'])
  refine ⟨by rw [← hn, ← hn', e1], by rw [e1], e2⟩

theorem isSignature_inj {r s r' s' : Nat} {a : Bytes} (ha : Der.IsSignature r s a) (hb : Der.IsSignature r' s' a) :
    r = r' ∧ s = s' := by
  obtain ⟨l, x, y, hx, hy, rfl, _⟩ := ha
  obtain ⟨l', x', y', hx', hy', e, _⟩ := hb
  simp only [List.cons.injEq, true_and] at e
  obtain ⟨h1, -, h2⟩ := isUInt_append hx hx' e.2
  subst h2
  have := isUInt_append (b := []) (b' := []) hy hy' rfl
  exact ⟨h1, this.1⟩

theorem encodeAsDer_spec (d : Bytes) (h : d.length = 64) :
    ∃ out, encodeAsDer d = .ok out ∧ out.length ≤ 72 ∧
      Der.IsSignature (beNat (d.take 32)) (beNat (d.drop 32)) out := by
  have ht : (d.take 32).length = 32 := by simp [h]
  have hd : (d.drop 32).length = 32 := by simp [h]
  obtain ⟨h1, h2⟩ := derUInt_spec (d.take 32) (by intro e; simp [e] at ht) (by omega)
  obtain ⟨h3, h4⟩ := derUInt_spec (d.drop 32) (by intro e; simp [e] at hd) (by omega)
  unfold encodeAsDer
  generalize derUInt (d.take 32) = a at *
  generalize derUInt (d.drop 32) = b at *
  simp only [h, ne_eq, not_true_eq_false, if_false]
  have hlen : (UInt8.ofNat (a ++ b).length).toNat = (a ++ b).length := by
    simp only [UInt8.toNat_ofNat', List.length_append]; omega
  rw [if_pos (by simp only [List.length_append, List.length_cons, List.length_nil]; omega)]
  refine ⟨_, rfl, by simp only [List.length_append, List.length_cons, List.length_nil]; omega, ?_⟩
  refine ⟨_, a, b, h1, h3, rfl, hlen, ?_⟩
  rw [UInt8.lt_iff_toNat_lt, hlen, List.length_append]
  have : (0x80 : UInt8).toNat = 128 := rfl
  omega

theorem encodeAsDer_other (d : Bytes) (h : d.length ≠ 64) : encodeAsDer d = .error .keyLengthIsInvalid := by
  simp [encodeAsDer, h]

end Verif
