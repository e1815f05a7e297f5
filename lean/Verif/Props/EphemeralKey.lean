import Verif.Spec.EphemeralKey
import Verif.Proofs.Refusal

/-!
# C158: the public key in a certificate
-/

namespace Verif

/-- **C158**: exactly which bytes are read as the key, for any bytes whatsoever: after the first occurrence of the name
of the curve and a tag comes a length, and the key is what this length covers, without its first two bytes. -/
theorem C158_exactly (der k : Bytes) :
    ephemeralKey der = .ok k ↔ ∃ off len start, Der.FirstAt Der.p256 der off ∧ LengthAt der (off + 11) len start ∧
      2 ≤ len ∧ start + len ≤ der.length ∧ k = sub der (start + 2) (len - 2) := by
  have h10 : prime256v1Oid.length = 10 := rfl
  unfold ephemeralKey
  simp only [bind_eq_ok, okOr_eq_ok, findSub_firstAt (show prime256v1Oid ≠ [] by decide)]
  constructor
  · rintro ⟨off, hoff, ⟨len, o⟩, hl, h⟩
    rw [h10, lengthFrom_iff] at hl
    refine ⟨off, len, o + 1, hoff, hl, ?_⟩
    simp only at h
    split at h
    · cases h
    · rw [okOr_eq_ok] at h
      unfold slice? at h
      split at h
      · cases h
        exact ⟨by omega, by omega, rfl⟩
      · cases h
  · rintro ⟨off, len, start, hoff, hl, h2, h3, rfl⟩
    have hpos : start = start - 1 + 1 := by
      obtain ⟨m, _, ⟨_, _, h⟩ | ⟨_, h, _⟩⟩ := hl <;> omega
    rw [hpos] at hl
    refine ⟨off, hoff, (len, start - 1), by rw [h10]; exact lengthFrom_iff.mpr hl, ?_⟩
    simp only
    rw [if_neg (by omega), okOr_eq_ok, ← hpos]
    unfold slice?
    rw [if_pos (by omega)]
    rfl

/-- **C158** (refusals): there are two errors and no panic. The first one says that the name of the curve does not
occur; the second one is for all other bytes from which no key is read. -/
theorem C158_refusals (der : Bytes) :
    (ephemeralKey der = .error .oidMissing ↔ ∀ p q, der ≠ p ++ Der.p256 ++ q) ∧
    (ephemeralKey der = .error .outOfBounds ↔ (∃ p q, der = p ++ Der.p256 ++ q) ∧ ∀ k, ephemeralKey der ≠ .ok k) := by
  have hp : prime256v1Oid ≠ [] := by decide
  have first : ephemeralKey der = .error .oidMissing ↔ ∀ p q, der ≠ p ++ Der.p256 ++ q := by
    rw [show Der.p256 = prime256v1Oid from rfl, ← findSub_none hp]
    unfold ephemeralKey
    simp only [bind_eq_error, okOr_eq_error, okOr_eq_ok, reduceCtorEq, and_false, false_or, and_true]
    constructor
    · rintro (h | ⟨off, _, ⟨len, o⟩, _, h⟩)
      · exact h
      · simp only at h
        split at h <;> simp at h
    · exact .inl
  refine ⟨first, ?_⟩
  constructor
  · intro h
    refine ⟨Classical.byContradiction fun hn => ?_, fun k hk => by rw [h] at hk; cases hk⟩
    have := first.mpr fun p q e => hn ⟨p, q, e⟩
    rw [h] at this
    cases this
  · rintro ⟨⟨p, q, hpq⟩, hk⟩
    cases h : ephemeralKey der with
    | ok k => exact absurd h (hk k)
    | error e =>
      cases e with
      | oidMissing => exact absurd hpq (first.mp h p q)
      | outOfBounds => rfl

/-- **C158** (certificates): the key of a certificate on P-256 is read out: 64 bytes, both coordinates of the point. The
name of the curve has to occur first in the public key, not in the bytes before it. -/
theorem C158_reads (pre rest : Bytes) (point : Arr 64)
    (first : ∀ p q, pre ++ Der.subjectPublicKey point ++ rest = p ++ Der.p256 ++ q → pre.length + 13 ≤ p.length) :
    ephemeralKey (pre ++ Der.subjectPublicKey point ++ rest) = .ok point.val := by
  rw [C158_exactly]
  have hp : point.val.length = 64 := point.2
  have form (pre' : Bytes) (hl : pre'.length = pre.length + 13)
      (e : pre ++ Der.subjectPublicKey point ++ rest = pre' ++ Der.p256 ++ ([0x03, 0x42, 0x00, 0x04] ++ (point.val ++ rest))) :
      ∃ off len start, Der.FirstAt Der.p256 (pre ++ Der.subjectPublicKey point ++ rest) off ∧
        LengthAt (pre ++ Der.subjectPublicKey point ++ rest) (off + 11) len start ∧
        2 ≤ len ∧ start + len ≤ (pre ++ Der.subjectPublicKey point ++ rest).length ∧
        point.val = sub (pre ++ Der.subjectPublicKey point ++ rest) (start + 2) (len - 2) := by
    have h10 : (pre' ++ Der.p256).length = pre.length + 23 := by simp [hl, Der.p256]
    refine ⟨pre.length + 13, 66, pre.length + 25, ⟨⟨pre', _, e, hl⟩, first⟩, ⟨0x42, ?_, .inl ⟨by decide, rfl, by omega⟩⟩,
      by omega, ?_, ?_⟩
    · rw [e, List.getElem?_append_right (by omega), h10]
      rw [show pre.length + 13 + 11 - (pre.length + 23) = 1 by omega]
      rfl
    · rw [e, List.length_append, h10]; simp [hp]; omega
    · unfold sub
      rw [e, List.drop_append, List.drop_of_length_le (by omega), h10]
      rw [show pre.length + 25 + 2 - (pre.length + 23) = 4 by omega]
      simp only [List.nil_append]
      show _ = List.take 64 (point.val ++ rest)
      rw [List.take_append_of_le_length (by omega), List.take_of_length_le (by omega)]
  exact form (pre ++ [0x30, 0x59, 0x30, 0x13, 0x06, 0x07, 0x2A, 0x86, 0x48, 0xCE, 0x3D, 0x02, 0x01]) (by simp)
    (by simp [Der.subjectPublicKey])

/-- A key between other bytes, one of them shorter than the claimed length, and none. -/
example : ephemeralKey ([1, 2, 3] ++ Der.subjectPublicKey (Arr.fill 64 7) ++ [9]) = .ok (List.replicate 64 7) ∧
    ephemeralKey (Der.p256 ++ [3, 4, 0, 4, 1]) = .error .outOfBounds ∧
    ephemeralKey (Der.p256 ++ [3, 1, 0, 4, 1]) = .error .outOfBounds ∧
    ephemeralKey [1, 2, 3] = .error .oidMissing := by
  refine ⟨C158_reads [1, 2, 3] [9] (Arr.fill 64 7) ?_, ?_, ?_, ?_⟩
  · intro p q h
    have : findSub prime256v1Oid ([1, 2, 3] ++ Der.subjectPublicKey (Arr.fill 64 7) ++ [9]) = some 16 := by decide +kernel
    exact ((findSub_firstAt (by decide)).mp this).2 p q h
  all_goals rfl

end Verif
