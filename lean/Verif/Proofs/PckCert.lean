import Verif.Spec.PckCert
import Verif.Proofs.Der

/-!
# Where the entries of the extension of a PCK certificate are found
-/

namespace Verif.Der

/-- A byte that is not in the pattern separates its occurrences. -/
theorem occurrence_sep {pat A B p q : Bytes} {b : UInt8} (hb : b ∉ pat) (h : A ++ b :: B = p ++ pat ++ q) :
    (∃ q', A = p ++ pat ++ q') ∨ (∃ p', p = A ++ b :: p' ∧ B = p' ++ pat ++ q) ∨ pat = [] := by
  rcases List.append_eq_append_iff.mp h with ⟨c, h1, h2⟩ | ⟨c, h1, h2⟩
  · -- p ++ pat = A ++ c, b :: B = c ++ q
    cases c with
    | nil => exact .inl ⟨[], by simpa using h1.symm⟩
    | cons x c =>
      simp only [List.cons_append, List.cons.injEq] at h2
      obtain ⟨rfl, rfl⟩ := h2
      rcases List.append_eq_append_iff.mp h1 with ⟨d, h3, h4⟩ | ⟨d, h3, h4⟩
      · -- A = p ++ d, pat = d ++ b :: c
        exact absurd (by rw [h4]; simp) hb
      · -- p = A ++ d, b :: c = d ++ pat
        cases d with
        | nil =>
          simp only [List.nil_append] at h4
          exact absurd (by rw [← h4]; simp) hb
        | cons y d =>
          simp only [List.cons_append, List.cons.injEq] at h4
          obtain ⟨rfl, rfl⟩ := h4
          exact .inr (.inl ⟨d, h3, by simp⟩)
  · exact .inl ⟨c, h1⟩

theorem absent_sep {pat A B : Bytes} {b : UInt8} (hb : b ∉ pat) (hA : Absent pat A) (hB : Absent pat B) :
    Absent pat (A ++ b :: B) := by
  intro p q h
  rcases occurrence_sep hb h with ⟨q', h⟩ | ⟨p', _, h⟩ | rfl
  · exact hA _ _ h
  · exact hB _ _ h
  · exact hA [] A (by simp)

theorem absent_cons {pat B : Bytes} {b : UInt8} (hb : b ∉ pat) (hne : pat ≠ []) (hB : Absent pat B) : Absent pat (b :: B) :=
  absent_sep (A := []) hb (fun p q h => by simp at h; exact hne h.2.1) hB

theorem absent_short {pat l : Bytes} (h : l.length < pat.length) : Absent pat l := by
  intro p q e
  have := congrArg List.length e
  simp only [List.length_append] at this
  omega

theorem absent_of_find {pat l : Bytes} (hne : pat ≠ []) (h : findSub pat l = none) : Absent pat l := by
  intro p q e
  have : ∃ off, findSub pat l = some off := by
    rw [e]
    clear h e
    induction p with
    | nil =>
      cases hp : pat with
      | nil => exact absurd hp hne
      | cons x xs =>
        refine ⟨0, ?_⟩
        simp [findSub]
    | cons y p ih =>
      obtain ⟨o, ho⟩ := ih
      simp only [List.cons_append, findSub]
      split
      · exact ⟨0, rfl⟩
      · exact ⟨o + 1, by rw [ho]; rfl⟩
  obtain ⟨o, ho⟩ := this
  rw [h] at ho; cases ho

/-- The pattern behind an object identifier tag and a length is the first occurrence if none is before the tag. -/
theorem first_after {pat A B : Bytes} {tag len x : UInt8} {rest : Bytes} (hp : pat = x :: rest) (ht : tag ∉ pat) (hl : len ≠ x)
    (hA : Absent pat A) : FirstAt pat (A ++ tag :: len :: pat ++ B) (A.length + 2) := by
  refine ⟨⟨A ++ [tag, len], B, by simp, by simp⟩, fun p q h => ?_⟩
  have h' : A ++ tag :: (len :: pat ++ B) = p ++ pat ++ q := by simpa using h
  rcases occurrence_sep ht h' with ⟨q', h⟩ | ⟨p', rfl, h⟩ | h
  · exact absurd h (hA _ _)
  · cases p' with
    | nil =>
      rw [hp] at h
      simp at h
      exact absurd h.1 hl
    | cons y p' => simp only [List.length_append, List.length_cons]; omega
  · rw [hp] at h; cases h

theorem first_behind {pat A B l : Bytes} {tag len : UInt8} (hp : ∃ r, pat = 0x2A :: r) (ht : tag ∉ pat) (hl : len ≠ 0x2A)
    (hA : Absent pat A) (h : l = A ++ tag :: len :: pat ++ B) : ∃ pre, l = pre ++ pat ++ B ∧ FirstAt pat l pre.length := by
  obtain ⟨r, hr⟩ := hp
  refine ⟨A ++ [tag, len], by rw [h]; simp, ?_⟩
  rw [h]
  simpa using first_after (B := B) hr ht hl hA

theorem length_lengthBytes (n : Nat) : (lengthBytes n).length ≤ 4 := by
  unfold lengthBytes
  split
  · simp
  · split
    · simp
    · split <;> simp

theorem entry_eq (k : Bytes) (v : Bytes) (hk : k.length ≤ 100) : entry k v =
    0x30 :: lengthBytes (tlv 0x06 (sgxArc ++ k) ++ v).length ++ 0x06 :: UInt8.ofNat (9 + k.length) :: sgxArc ++ k ++ v := by
  have h : tlv 0x06 (sgxArc ++ k) = 0x06 :: UInt8.ofNat (9 + k.length) :: sgxArc ++ k := by
    unfold tlv
    have : (sgxArc ++ k).length = 9 + k.length := by simp [sgxArc]; omega
    rw [this, lengthBytes, if_pos (by omega)]
    simp
  rw [entry, tlv]
  generalize hl : (tlv 0x06 (sgxArc ++ k) ++ v).length = n
  rw [h]
  simp

/-- The patterns that are searched for. -/
structure Pattern (pat : Bytes) : Prop where
  starts : ∃ r, pat = 0x2A :: r
  noSeq : (0x30 : UInt8) ∉ pat
  noOid : (0x06 : UInt8) ∉ pat
  noLen : (0x10 : UInt8) ∉ pat
  long : 9 < pat.length

theorem Pattern.ne {pat : Bytes} (h : Pattern pat) : pat ≠ [] := by
  obtain ⟨r, h⟩ := h.starts; rw [h]; simp

/-- Nothing is found in an entry in whose identifier and value nothing is found. -/
theorem absent_entry {pat A : Bytes} (h : Pattern pat) (k v : Bytes) (hk : k.length ≤ 100) (hA : Absent pat A)
    (hv : Absent pat (UInt8.ofNat (9 + k.length) :: sgxArc ++ k ++ v)) : Absent pat (A ++ entry k v) := by
  rw [entry_eq k v hk]
  simp only [List.cons_append, List.append_assoc]
  refine absent_sep h.noSeq hA ?_
  refine absent_sep h.noOid (absent_short ?_) (by simpa using hv)
  have := length_lengthBytes (tlv 0x06 (sgxArc ++ k) ++ v).length
  have := h.long
  omega

/-- Nothing is found in the entries of the components. -/
theorem absent_components {pat : Bytes} (h : Pattern pat)
    (hc : ∀ k n : Nat, 1 ≤ k → k ≤ 16 → n < 256 → Absent pat (0x0B :: sgxArc ++ [2, UInt8.ofNat k] ++ uint n)) (vs : Bytes) :
    ∀ (k : Nat) (A : Bytes), 1 ≤ k → k + vs.length ≤ 17 → Absent pat A → Absent pat (A ++ componentEntries k vs) := by
  induction vs with
  | nil => intro k A _ _ hA; simpa [componentEntries] using hA
  | cons v vs ih =>
    intro k A hk hl hA
    simp only [List.length_cons] at hl
    rw [componentEntries, ← List.append_assoc]
    refine ih (k + 1) _ (by omega) (by omega) ?_
    exact absent_entry h [2, UInt8.ofNat k] (uint v.toNat) (by simp) hA (hc k v.toNat hk (by omega) v.toNat_lt)

theorem uint_form {n : Nat} (h : n < 65536) : (∃ a, uint n = [2, 1, a] ∧ n = a.toNat) ∨
    (∃ a b, uint n = [2, 2, a, b] ∧ n = a.toNat * 256 + b.toNat ∧ n < 32768) ∨ (∃ a b, uint n = [2, 3, 0, a, b] ∧ 32768 ≤ n) := by
  unfold uint tlv uintContent
  split
  · exact .inl ⟨UInt8.ofNat n, by simp [lengthBytes], by simp only [UInt8.toNat_ofNat']; omega⟩
  · split
    · refine .inr (.inl ⟨UInt8.ofNat (n / 256), UInt8.ofNat (n % 256), by simp [lengthBytes], ?_, by assumption⟩)
      simp only [UInt8.toNat_ofNat']
      omega
    · exact .inr (.inr ⟨UInt8.ofNat (n / 256), UInt8.ofNat (n % 256), by simp [lengthBytes], by omega⟩)

/-- The encoding of numbers is that of X.690. -/
theorem uint_isUInt {n : Nat} (h : n < 65536) : IsUInt n (uint n) := by
  have hn : ∀ m : Nat, m < 128 → (UInt8.ofNat m) < 0x80 := fun m hm => by
    rw [UInt8.lt_iff_toNat_lt]
    simp only [UInt8.toNat_ofNat']
    have : (0x80 : UInt8).toNat = 128 := rfl
    omega
  have hz : ∀ m : Nat, 128 ≤ m → m < 256 → (0x80 : UInt8) ≤ UInt8.ofNat m := fun m h1 h2 => by
    rw [UInt8.le_iff_toNat_le]
    simp only [UInt8.toNat_ofNat']
    have : (0x80 : UInt8).toNat = 128 := rfl
    omega
  have h0 : ∀ m : Nat, m < 256 → UInt8.ofNat m = 0 → m = 0 := fun m hm e => by
    have := congrArg UInt8.toNat e
    simp only [UInt8.toNat_ofNat'] at this
    have : (0 : UInt8).toNat = 0 := rfl
    omega
  unfold uint tlv uintContent
  split
  · exact ⟨1, UInt8.ofNat n, [], by simp [lengthBytes], rfl, by decide, by simp [beNat, leNat]; omega, hn n (by assumption), by simp⟩
  · split
    · refine ⟨2, UInt8.ofNat (n / 256), [UInt8.ofNat (n % 256)], by simp [lengthBytes], rfl, by decide, by simp [beNat, leNat]; omega,
        hn _ (by omega), ?_⟩
      rintro a r e hf
      simp only [List.cons.injEq] at e
      rw [← e.1]
      have := h0 _ (by omega) hf
      exact hz _ (by omega) (by omega)
    · refine ⟨3, 0, [UInt8.ofNat (n / 256), UInt8.ofNat (n % 256)], by simp [lengthBytes], rfl, by decide, by simp [beNat, leNat]; omega,
        by decide, ?_⟩
      rintro a r e _
      simp only [List.cons.injEq] at e
      rw [← e.1]
      exact hz _ (by omega) (by omega)

theorem uint_small {n : Nat} (h : n < 256) : (∃ a, uint n = [2, 1, a]) ∨ ∃ a, uint n = [2, 2, 0, a] := by
  unfold uint tlv uintContent
  split
  · exact .inl ⟨UInt8.ofNat n, by simp [lengthBytes]⟩
  · have : n / 256 = 0 := by omega
    rw [if_pos (by omega), this]
    exact .inr ⟨UInt8.ofNat (n % 256), by simp [lengthBytes]⟩

/-- What has to be absent from the parts of the extension with arbitrary contents. -/
structure Parts (pat : Bytes) : Prop extends Pattern pat where
  component : ∀ k n : Nat, 1 ≤ k → k ≤ 16 → n < 256 → Absent pat (0x0B :: sgxArc ++ [2, UInt8.ofNat k] ++ uint n)
  one : Absent pat (0x0A :: sgxArc ++ [1, 4])
  two : Absent pat (0x0A :: sgxArc ++ [2])

/-- The extension up to the entries of the components. -/
theorem absent_start {pat : Bytes} (h : Parts pat) (e : PckExtension) (hp : Absent pat e.ppid.val) (L L1 L2 : Bytes) (hL : L.length ≤ 4)
    (hL1 : L1.length ≤ 4) (hL2 : L2.length ≤ 4) :
    Absent pat (0x30 :: L ++ entry [1] (octets e.ppid.val) ++ 0x30 :: L1 ++ 0x06 :: 0x0A :: sgxArc ++ [2] ++ 0x30 :: L2 ++
      componentEntries 1 e.components.val) := by
  have hlong := h.long
  refine absent_components h.toPattern h.component _ 1 _ (by omega) (by have := e.components.property; omega) ?_
  have h1 : Absent pat (0x30 :: L) := absent_cons h.noSeq h.toPattern.ne (absent_short (by omega))
  have h2 : Absent pat (0x30 :: L ++ entry [1] (octets e.ppid.val)) := by
    refine absent_entry h.toPattern [1] _ (by simp) h1 ?_
    have : UInt8.ofNat (9 + ([1] : Bytes).length) :: sgxArc ++ [1] ++ octets e.ppid.val = (0x0A :: sgxArc ++ [1, 4]) ++ 0x10 :: e.ppid.val := by
      simp [octets, tlv, lengthBytes, e.ppid.property]
    rw [this]
    exact absent_sep h.noLen h.one hp
  have h3 := absent_sep (B := L1) h.noSeq h2 (absent_short (by omega))
  have h4 := absent_sep (B := 0x0A :: sgxArc ++ [2]) h.noOid h3 h.two
  have h5 := absent_sep (B := L2) h.noSeq h4 (absent_short (by omega))
  simpa using h5

theorem absent_longer {pat more l : Bytes} (h : Absent pat l) : Absent (pat ++ more) l := by
  intro p q e
  exact h p (more ++ q) (by rw [e]; simp)

theorem parts {more : Bytes} (h : more = [4] ∨ more = [2, 17] ∨ more = [2, 18]) : Parts (sgxArc ++ more) := by
  have key : ∀ k n : Nat, 1 ≤ k → k ≤ 16 → n < 256 → Absent (sgxArc ++ more) (0x0B :: sgxArc ++ [2, UInt8.ofNat k] ++ uint n) := by
    intro k n h1 h2 h3
    have hk : UInt8.ofNat k ≠ 17 ∧ UInt8.ofNat k ≠ 18 := by
      constructor <;>
      · intro e
        have := congrArg UInt8.toNat e
        simp only [UInt8.toNat_ofNat'] at this
        have h17 : (17 : UInt8).toNat = 17 := rfl
        have h18 : (18 : UInt8).toNat = 18 := rfl
        omega
    generalize UInt8.ofNat k = k' at hk
    refine absent_of_find (by simp [sgxArc]) ?_
    have e1 : ((17 : UInt8) == k') = false := by simpa using Ne.symm hk.1
    have e2 : ((18 : UInt8) == k') = false := by simpa using Ne.symm hk.2
    rcases uint_small h3 with ⟨a, ha⟩ | ⟨a, ha⟩ <;> rw [ha] <;> rcases h with rfl | rfl | rfl <;>
      simp [findSub, sgxArc, List.isPrefixOf, e1, e2]
  refine { starts := ?_, noSeq := ?_, noOid := ?_, noLen := ?_, long := ?_, component := key, one := ?_, two := ?_ }
  · exact ⟨_, rfl⟩
  all_goals first
    | (rcases h with rfl | rfl | rfl <;> decide)
    | (rcases h with rfl | rfl | rfl <;> exact absent_of_find (by decide) (by decide))

theorem tlv_eq (t : UInt8) (v : Bytes) : ∃ L : Bytes, L.length ≤ 4 ∧ tlv t v = t :: L ++ v := ⟨_, length_lengthBytes _, rfl⟩

end Verif.Der
