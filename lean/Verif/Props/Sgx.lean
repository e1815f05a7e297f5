import Verif.Proofs.Der
import Verif.Proofs.PemSplit
import Verif.Proofs.TeerexInv
import Verif.Spec.DemoSgx

/-!
# Helpers of sgx-verify and registration of collateral: C67, C73, C75, C77, C85, C86
-/

namespace Verif

open Demo

/-! ### C67 DER helpers parse what they claim -/

/-- The object identifiers of Intel's extension, from the PCK certificate specification: 1.2.840.113741.1.13.1.4,
.2.18 and .2.17 in DER. -/
def specFmspc : Bytes := [0x2A, 0x86, 0x48, 0x86, 0xF8, 0x4D, 1, 13, 1, 4]
def specCpusvn : Bytes := [0x2A, 0x86, 0x48, 0x86, 0xF8, 0x4D, 1, 13, 1, 2, 18]
def specPcesvn : Bytes := [0x2A, 0x86, 0x48, 0x86, 0xF8, 0x4D, 1, 13, 1, 2, 17]

/-- C67: the FMSPC returned is the six bytes behind the first occurrence of the identifier, the tag and the length. -/
theorem C67_fmspc (der : Bytes) (v : Fmspc) :
    getFmspc der = .ok v ↔
      ∃ pre tag len post, der = pre ++ specFmspc ++ tag :: len :: v.val ++ post ∧ Der.FirstAt specFmspc der pre.length := by
  have hne : oidFmspc ≠ [] := by decide
  simp only [getFmspc, bind_eq_ok, okOr_eq_ok]
  constructor
  · rintro ⟨off, h1, data, h2, h3⟩
    have h1' := (findSub_some hne).mp h1
    obtain ⟨pre, rest, rfl, rfl⟩ := h1'.1
    rw [show pre.length + 12 = pre.length + oidFmspc.length + 2 from rfl, slice?_after] at h2
    have hd := slice?_eq_some.mp h2
    have hk : 2 ≤ rest.length := by omega
    obtain ⟨post, h4, hlen⟩ := (slice?_mid hk).mp h2
    have hv : v.val = data := by
      unfold Arr.ofBytes? at h3
      rw [dif_pos hlen] at h3
      simp only [Option.some.injEq] at h3; rw [← h3]
    match rest, hk with
    | t :: l :: r, _ =>
      refine ⟨pre, t, l, post, ?_, ⟨pre, _, rfl, rfl⟩, h1'.2⟩
      rw [hv]
      have : t :: l :: r = t :: l :: data ++ post := by simpa using h4
      rw [this]
      simp [specFmspc, oidFmspc, oidIntelExt]
  · rintro ⟨pre, tag, len, post, rfl, hf⟩
    refine ⟨pre.length, (findSub_some hne).mpr ⟨⟨pre, tag :: len :: v.val ++ post, by simp [specFmspc, oidFmspc, oidIntelExt], rfl⟩, hf.2⟩, v.val, ?_, ?_⟩
    · rw [show pre ++ specFmspc ++ tag :: len :: v.val ++ post = pre ++ oidFmspc ++ (tag :: len :: v.val ++ post) by
        simp [specFmspc, oidFmspc, oidIntelExt], show pre.length + 12 = pre.length + oidFmspc.length + 2 from rfl, slice?_after]
      exact (slice?_mid (by simp)).mpr ⟨post, by simp, v.property⟩
    · unfold Arr.ofBytes?
      rw [dif_pos v.property]

example : getFmspc intelExt = .ok demoFmspc := rfl

/-- C67: likewise the CPU SVN. -/
theorem C67_cpusvn (der : Bytes) (v : Cpusvn) :
    getCpusvn der = .ok v ↔
      ∃ pre tag len post, der = pre ++ specCpusvn ++ tag :: len :: v.val ++ post ∧ Der.FirstAt specCpusvn der pre.length := by
  have hne : oidCpusvn ≠ [] := by decide
  simp only [getCpusvn, bind_eq_ok, okOr_eq_ok]
  constructor
  · rintro ⟨off, h1, data, h2, h3⟩
    have h1' := (findSub_some hne).mp h1
    obtain ⟨pre, rest, rfl, rfl⟩ := h1'.1
    rw [show pre.length + 13 = pre.length + oidCpusvn.length + 2 from rfl, slice?_after] at h2
    have hd := slice?_eq_some.mp h2
    have hk : 2 ≤ rest.length := by omega
    obtain ⟨post, h4, hlen⟩ := (slice?_mid hk).mp h2
    have hv : v.val = data := by
      unfold Arr.ofBytes? at h3
      rw [dif_pos hlen] at h3
      simp only [Option.some.injEq] at h3; rw [← h3]
    match rest, hk with
    | t :: l :: r, _ =>
      refine ⟨pre, t, l, post, ?_, ⟨pre, _, rfl, rfl⟩, h1'.2⟩
      rw [hv]
      have : t :: l :: r = t :: l :: data ++ post := by simpa using h4
      rw [this]
      simp [specCpusvn, oidCpusvn, oidIntelExt]
  · rintro ⟨pre, tag, len, post, rfl, hf⟩
    refine ⟨pre.length, (findSub_some hne).mpr ⟨⟨pre, tag :: len :: v.val ++ post, by simp [specCpusvn, oidCpusvn, oidIntelExt], rfl⟩, hf.2⟩, v.val, ?_, ?_⟩
    · rw [show pre ++ specCpusvn ++ tag :: len :: v.val ++ post = pre ++ oidCpusvn ++ (tag :: len :: v.val ++ post) by
        simp [specCpusvn, oidCpusvn, oidIntelExt], show pre.length + 13 = pre.length + oidCpusvn.length + 2 from rfl, slice?_after]
      exact (slice?_mid (by simp)).mpr ⟨post, by simp, v.property⟩
    · unfold Arr.ofBytes?
      rw [dif_pos v.property]

example : (getCpusvn intelExt).isOk = true := rfl

/-- C67: the PCE SVN is the big-endian one- or two-byte content behind the first occurrence of the identifier; the
length may be in short form or in two-byte long form. -/
theorem C67_pcesvn (der : Bytes) (n : Nat) :
    getPcesvn der = .ok n ↔
      ∃ pre tag lenBytes content post, der = pre ++ specPcesvn ++ tag :: lenBytes ++ content ++ post ∧
        Der.FirstAt specPcesvn der pre.length ∧ beNat content = n ∧
        (content.length = 1 ∧ (lenBytes = [1] ∨ ∃ m : UInt8, 0x80 < m ∧ lenBytes = [m, 0, 1]) ∨
         content.length = 2 ∧ (lenBytes = [2] ∨ ∃ m : UInt8, 0x80 < m ∧ lenBytes = [m, 0, 2])) := by
  have hne : oidPcesvn ≠ [] := by decide
  have hspec : specPcesvn = oidPcesvn := by decide
  have hval : ∀ d : Bytes, d.length = 1 ∨ d.length = 2 →
      (match d with
        | [a] => (Except.ok a.toNat : Except SgxError Nat)
        | [a, b] => .ok (beNat [a, b])
        | _ => .error .panic) = .ok (beNat d) := by
    intro d hd
    match d with
    | [a] => simp [beNat, leNat]
    | [a, b] => rfl
    | [] => simp at hd
    | _ :: _ :: _ :: _ => simp at hd
  have hzero : ∀ h l : UInt8, ∀ k : Nat, k < 256 → (h.toNat * 256 + l.toNat = k → h = 0 ∧ l.toNat = k) := by
    intro h l k hk e
    have : h.toNat = 0 := by have := l.toNat_lt; omega
    exact ⟨UInt8.toNat_inj.mp (by simpa using this), by omega⟩
  have hu : ∀ l : UInt8, ∀ k : UInt8, l.toNat = k.toNat → l = k := fun l k h => UInt8.toNat_inj.mp h
  rw [hspec]
  simp only [getPcesvn, bind_eq_ok, okOr_eq_ok, ensure_eq_ok, Prod.exists, exists_and_left]
  constructor
  · rintro ⟨off, h1, len, off', h2, h3, _, data, h4, h5⟩
    have h1' := (findSub_some hne).mp h1
    obtain ⟨pre, rest, rfl, rfl⟩ := h1'.1
    rw [lengthFrom_after] at h2
    simp only [Option.map_eq_some_iff, Prod.exists, Prod.mk.injEq] at h2
    obtain ⟨len', k, h2, rfl, rfl⟩ := h2
    rw [Nat.add_assoc _ k 1, slice?_after] at h4
    have hlen : data.length = len' := by
      have := slice?_eq_some.mp h4
      rw [this.2]; exact sub_length this.1
    obtain ⟨tag, lenBytes, post, rfl, hform⟩ := lengthFrom_content.mp ⟨len', k, h2, h4⟩
    have h12 : data.length = 1 ∨ data.length = 2 := by
      simp only [Bool.or_eq_true, beq_iff_eq] at h3
      omega
    replace h5 := (hval data h12).symm.trans h5
    simp only [Except.ok.injEq] at h5
    refine ⟨pre, tag, lenBytes, data, post, by simp, ⟨⟨pre, _, rfl, rfl⟩, h1'.2⟩, h5, ?_⟩
    rcases hform with ⟨l, rfl, _, hl⟩ | ⟨m, h, l, rfl, hm, hl⟩
    · rcases h12 with h12 | h12
      · exact .inl ⟨h12, .inl (by rw [hu l 1 (by rw [← hl, h12]; rfl)])⟩
      · exact .inr ⟨h12, .inl (by rw [hu l 2 (by rw [← hl, h12]; rfl)])⟩
    · have hm' : 0x80 < m := UInt8.lt_iff_toNat_lt.mpr hm
      rcases h12 with h12 | h12
      · obtain ⟨rfl, e⟩ := hzero h l 1 (by omega) (by rw [← hl, h12])
        exact .inl ⟨h12, .inr ⟨m, hm', by rw [hu l 1 e]⟩⟩
      · obtain ⟨rfl, e⟩ := hzero h l 2 (by omega) (by rw [← hl, h12])
        exact .inr ⟨h12, .inr ⟨m, hm', by rw [hu l 2 e]⟩⟩
  · rintro ⟨pre, tag, lenBytes, data, post, hder, hf, rfl, hform⟩
    have hder' : der = pre ++ oidPcesvn ++ ([tag] ++ lenBytes ++ data ++ post) := by simp [hder]
    have hc : ∃ n off, lengthFromRawData ([tag] ++ lenBytes ++ data ++ post) 1 = some (n, off) ∧
        slice? ([tag] ++ lenBytes ++ data ++ post) (off + 1) n = some data := by
      refine lengthFrom_content.mpr ⟨tag, lenBytes, post, rfl, ?_⟩
      rcases hform with ⟨hd, rfl | ⟨m, hm, rfl⟩⟩ | ⟨hd, rfl | ⟨m, hm, rfl⟩⟩
      · exact .inl ⟨1, rfl, by decide, hd⟩
      · exact .inr ⟨m, 0, 1, rfl, UInt8.lt_iff_toNat_lt.mp hm, hd⟩
      · exact .inl ⟨2, rfl, by decide, hd⟩
      · exact .inr ⟨m, 0, 2, rfl, UInt8.lt_iff_toNat_lt.mp hm, hd⟩
    obtain ⟨len, off, h1, h2⟩ := hc
    have hlen : data.length = len := by
      have := slice?_eq_some.mp h2
      rw [this.2]; exact sub_length this.1
    have h12 : data.length = 1 ∨ data.length = 2 := by
      rcases hform with ⟨hd, _⟩ | ⟨hd, _⟩
      · exact .inl hd
      · exact .inr hd
    refine ⟨pre.length, (findSub_some hne).mpr ⟨⟨pre, _, hder', rfl⟩, hf.2⟩, len, pre.length + oidPcesvn.length + off, ?_, ?_, (), data, ?_, hval data h12⟩
    · rw [hder', lengthFrom_after, h1]; rfl
    · simp only [Bool.or_eq_true, beq_iff_eq]; omega
    · rw [hder', Nat.add_assoc _ off 1, slice?_after]; exact h2

example : getPcesvn intelExt = .ok 7 ∧ getPcesvn (specPcesvn ++ [2, 2, 1, 7, 0]) = .ok 263 := ⟨rfl, rfl⟩

/-- C67: none of them panics. -/
theorem C67_no_panic (der : Bytes) :
    getFmspc der ≠ .error .panic ∧ getCpusvn der ≠ .error .panic ∧ getPcesvn der ≠ .error .panic := by
  refine ⟨?_, ?_, getPcesvn_ne_panic der⟩
  · simp [getFmspc, bind_eq_error]
  · simp [getCpusvn, bind_eq_error]

example : getFmspc intelExt = .ok demoFmspc ∧ (getCpusvn intelExt).isOk = true ∧ getPcesvn intelExt = .ok 7 ∧
    getPcesvn (specPcesvn ++ [2, 2, 1, 7, 0]) = .ok 263 := ⟨rfl, rfl, rfl, rfl⟩

/-- C67: the length helper, byte by byte: a byte up to 127 is the length itself, and 0x82 announces two bytes of length, the
high one first. The second number is the place of the last byte of the length. -/
theorem C67_length (pre post : Bytes) (l0 hi lo : UInt8) :
    (l0.toNat < 128 → lengthFromRawData (pre ++ l0 :: post) pre.length = some (l0.toNat, pre.length)) ∧
    lengthFromRawData (pre ++ 0x82 :: hi :: lo :: post) pre.length = some (hi.toNat * 256 + lo.toNat, pre.length + 2) := by
  constructor
  · intro h
    simp only [lengthFromRawData, List.getElem?_append_right (Nat.le_refl _), Nat.sub_self, List.getElem?_cons_zero,
      Option.bind_eq_bind, Option.bind_some]
    rw [if_neg (by omega)]
  · have h1 : (pre ++ 0x82 :: hi :: lo :: post)[pre.length + 1]? = some hi := by
      rw [List.getElem?_append_right (by omega), Nat.add_sub_cancel_left]; rfl
    have h2 : (pre ++ 0x82 :: hi :: lo :: post)[pre.length + 2]? = some lo := by
      rw [List.getElem?_append_right (by omega), Nat.add_sub_cancel_left]; rfl
    simp only [lengthFromRawData, List.getElem?_append_right (Nat.le_refl _), Nat.sub_self, List.getElem?_cons_zero,
      Option.bind_eq_bind, Option.bind_some, h1, h2]
    rw [if_pos (by decide)]

example : (5 : UInt8).toNat < 128 ∧ lengthFromRawData [9, 5, 1] 1 = some (5, 1) ∧
    lengthFromRawData [9, 0x82, 1, 44, 7] 1 = some (300, 3) := ⟨by decide, rfl, rfl⟩

/-! ### C85 Every DER length is decoded -/

/-- The full claim. It is false for the code (see `C85_refuted`). -/
def C85_Full : Prop := ∀ (pre post : Bytes) (n : Nat), n < 2 ^ 24 →
  lengthFromRawData (pre ++ Der.lengthBytes n ++ post) pre.length =
    some (n, pre.length + (Der.lengthBytes n).length - 1)

/-- 128 is encoded as 0x81 0x80, which is taken for a two-byte length. -/
theorem C85_refuted : ¬ C85_Full := by
  intro h
  have := h [] [7] 128 (by decide)
  revert this
  decide +kernel

/-- C85, partial: lengths in short form and in two-byte long form are decoded. Missing: one-byte and three-byte long
forms. -/
theorem C85_length_partial (pre post : Bytes) (n : Nat) (h : n < 128 ∨ 256 ≤ n ∧ n < 65536) :
    lengthFromRawData (pre ++ Der.lengthBytes n ++ post) pre.length =
      some (n, pre.length + (Der.lengthBytes n).length - 1) := by
  have key := lengthFrom_after pre [] (Der.lengthBytes n ++ post) 0
  simp only [List.append_nil, List.length_nil, Nat.add_zero, ← List.append_assoc] at key
  rw [key]
  rcases h with h | ⟨h1, h2⟩
  · have e : Der.lengthBytes n = [UInt8.ofNat n] := by simp [Der.lengthBytes, h]
    have hn : (UInt8.ofNat n).toNat = n := by simp only [UInt8.toNat_ofNat']; omega
    rw [e]
    simp only [lengthFromRawData, List.cons_append, List.getElem?_cons_zero, Option.bind_eq_bind, Option.bind_some, hn]
    rw [if_neg (by omega)]
    simp
  · have e : Der.lengthBytes n = [0x82, UInt8.ofNat (n / 256), UInt8.ofNat (n % 256)] := by
      unfold Der.lengthBytes
      rw [if_neg (by omega), if_neg (by omega), if_pos h2]
    have ha : (UInt8.ofNat (n / 256)).toNat = n / 256 := by simp only [UInt8.toNat_ofNat']; omega
    have hb : (UInt8.ofNat (n % 256)).toNat = n % 256 := by simp only [UInt8.toNat_ofNat']; omega
    rw [e]
    simp [lengthFromRawData, ha, hb]
    omega

example : (300 < 128 ∨ 256 ≤ 300 ∧ 300 < 65536) ∧ lengthFromRawData ([9, 9] ++ Der.lengthBytes 300 ++ [1]) 2 = some (300, 4) :=
  ⟨by decide, rfl⟩

/-- C85: all the others are decoded wrongly, whatever follows. -/
theorem C85_wrong_partial (pre post : Bytes) (n : Nat) (h : 128 ≤ n ∧ n < 256 ∨ 65536 ≤ n ∧ n < 2 ^ 24) (off : Nat) :
    lengthFromRawData (pre ++ Der.lengthBytes n ++ post) pre.length ≠ some (n, off) := by
  have key := lengthFrom_after pre [] (Der.lengthBytes n ++ post) 0
  simp only [List.append_nil, List.length_nil, Nat.add_zero, ← List.append_assoc] at key
  rw [key]
  rcases h with ⟨h1, h2⟩ | ⟨h1, h2⟩
  · have e : Der.lengthBytes n = [0x81, UInt8.ofNat n] := by
      unfold Der.lengthBytes
      rw [if_neg (by omega), if_pos h2]
    have hn : (UInt8.ofNat n).toNat = n := by simp only [UInt8.toNat_ofNat']; omega
    rw [e]
    cases post with
    | nil => simp [lengthFromRawData]
    | cons p post =>
      simp [lengthFromRawData]
      omega
  · have e : Der.lengthBytes n = [0x83, UInt8.ofNat (n / 65536), UInt8.ofNat (n / 256 % 256), UInt8.ofNat (n % 256)] := by
      unfold Der.lengthBytes
      rw [if_neg (by omega), if_neg (by omega), if_neg (by omega)]
    have ha := (UInt8.ofNat (n / 65536)).toNat_lt
    have hb := (UInt8.ofNat (n / 256 % 256)).toNat_lt
    rw [e]
    simp only [lengthFromRawData, List.cons_append, List.getElem?_cons_zero, List.getElem?_cons_succ, Option.bind_eq_bind,
      Option.bind_some]
    rw [if_pos (by decide)]
    simp only [Option.map_some, ne_eq, Option.some.injEq, Prod.mk.injEq, not_and]
    intro h; omega

/-- A length of 200 is read as 51201 when the content starts with the byte 1. -/
example : (128 ≤ 200 ∧ 200 < 256 ∨ 65536 ≤ 200 ∧ 200 < 2 ^ 24) ∧
    (lengthFromRawData ([9] ++ Der.lengthBytes 200 ++ [1]) 1).map (·.1) = some 51201 := by decide

example : lengthFromRawData ([9] ++ Der.lengthBytes 300 ++ [1]) 1 = some (300, 3) := rfl

/-! ### C73 Signatures are re-encoded faithfully -/

/-- C73: exactly the 64-byte inputs are accepted, and the output is the DER encoding of the two numbers. -/
theorem C73_exact (d out : Bytes) :
    encodeAsDer d = .ok out ↔ d.length = 64 ∧ Der.IsSignature (beNat (d.take 32)) (beNat (d.drop 32)) out := by
  constructor
  · intro h
    by_cases hl : d.length = 64
    · obtain ⟨out', h1, _, h2⟩ := encodeAsDer_spec d hl
      rw [h1] at h
      simp only [Except.ok.injEq] at h
      exact ⟨hl, h ▸ h2⟩
    · rw [encodeAsDer_other d hl] at h; simp at h
  · rintro ⟨hl, h⟩
    obtain ⟨out', h1, _, h2⟩ := encodeAsDer_spec d hl
    rw [h1, isSignature_unique h h2]

example : encodeAsDer (bytes 31 0 ++ [200] ++ bytes 31 0 ++ [5]) = .ok [0x30, 7, 2, 2, 0, 200, 2, 1, 5] := rfl

/-- C73: encoding succeeds exactly on 64 bytes and needs at most 72. -/
theorem C73_total (d : Bytes) : (∃ out, encodeAsDer d = .ok out ∧ out.length ≤ 72) ↔ d.length = 64 := by
  constructor
  · rintro ⟨out, h, _⟩; exact ((C73_exact d out).mp h).1
  · intro h
    obtain ⟨out, h1, h2, _⟩ := encodeAsDer_spec d h
    exact ⟨out, h1, h2⟩

example : (encodeAsDer (bytes 64 255)).map List.length = .ok 72 ∧ (encodeAsDer (bytes 63 255)).isOk = false := ⟨rfl, rfl⟩

/-- C73: different signatures have different encodings. -/
theorem C73_injective (d d' out : Bytes) (h : encodeAsDer d = .ok out) (h' : encodeAsDer d' = .ok out) : d = d' := by
  obtain ⟨hl, h1⟩ := (C73_exact d out).mp h
  obtain ⟨hl', h1'⟩ := (C73_exact d' out).mp h'
  obtain ⟨e1, e2⟩ := isSignature_inj h1 h1'
  have t := beNat_inj (by simp [hl, hl']) e1
  have u := beNat_inj (by simp [hl, hl']) e2
  rw [← List.take_append_drop 32 d, ← List.take_append_drop 32 d', t, u]

example : encodeAsDer (bytes 31 0 ++ [200] ++ bytes 31 0 ++ [5]) = .ok [0x30, 7, 2, 2, 0, 200, 2, 1, 5] ∧
    encodeAsDer (bytes 31 0 ++ [5] ++ bytes 31 0 ++ [200]) = .ok [0x30, 7, 2, 1, 5, 2, 2, 0, 200] := ⟨rfl, rfl⟩

example : encodeAsDer (bytes 31 0 ++ [200] ++ bytes 31 0 ++ [5]) = .ok [0x30, 7, 2, 2, 0, 200, 2, 1, 5] := rfl
example : (encodeAsDer (bytes 64 255)).map List.length = .ok 72 := rfl

/-! ### C75 Certificate chains are split exactly at the PEM markers -/

/-- C75: from any list of armoured certificates followed by text that is not one, exactly the decoded bodies are
extracted, in order. The decoder of Base64 is arbitrary; bodies it does not decode are skipped. -/
theorem C75_extract (x : Ext) (bodies : List Bytes) (tail : Bytes) (hb : ∀ b ∈ bodies, Der.IsBody b)
    (ht : ∀ c ∈ tail, c < 128 ∧ c ≠ 45) (hx : Der.joinLines tail = [] ∨ x.base64 (Der.joinLines tail) = none) :
    extractCerts x (bodies.flatMap Der.armour ++ tail) = bodies.filterMap fun b => x.base64 (Der.joinLines b) := by
  have hascii : ∀ c ∈ bodies.flatMap Der.armour ++ tail, c < 128 := by
    intro c hc
    rcases List.mem_append.mp hc with hc | hc
    · obtain ⟨b, hbm, hc⟩ := List.mem_flatMap.mp hc
      simp only [Der.armour, List.mem_append] at hc
      rcases hc with (hc | hc) | hc
      · exact (by decide : ∀ c ∈ Der.ascii "-----BEGIN CERTIFICATE-----\n", c < 128) c hc
      · exact ((hb b hbm).1 c hc).1
      · exact (by decide : ∀ c ∈ Der.ascii "\n-----END CERTIFICATE-----\n", c < 128) c hc
    · exact (ht c hc).1
  have hno : ∀ b : Bytes, (∀ c ∈ b, c ≠ 45) → ∀ c ∈ (Der.joinLines b).map UInt8.toNat, c ≠ 45 := by
    intro b h c hc
    obtain ⟨u, hu, rfl⟩ := List.mem_map.mp hc
    have := h u (List.mem_filter.mp hu).1
    intro e
    exact this (UInt8.toNat_inj.mp e)
  have hdec : ∀ b : Bytes, (∀ c ∈ b, c < 128) →
      base64Str x ((Der.joinLines b).map UInt8.toNat) = x.base64 (Der.joinLines b) := by
    intro b h
    unfold base64Str
    rw [if_pos, List.map_map]
    · congr 1
      conv => rhs; rw [← List.map_id (Der.joinLines b)]
      apply List.map_congr_left
      intro c _
      simp
    · rw [List.all_eq_true]
      intro c hc
      obtain ⟨u, hu, rfl⟩ := List.mem_map.mp hc
      have := h u (List.mem_filter.mp hu).1
      rw [UInt8.lt_iff_toNat_lt] at this
      exact decide_eq_true this
  unfold extractCerts
  simp only
  rw [utf8Lossy_ascii _ hascii, removeStr_single, armour_joined, removeStr_begin, split_end]
  · rw [List.filter_append, List.filter_eq_self.mpr, List.filterMap_append, List.filterMap_map]
    · have h1 : List.filterMap (base64Str x) (List.filter (fun p => !p.isEmpty) [(Der.joinLines tail).map UInt8.toNat]) = [] := by
        rcases hx with hx | hx
        · simp [hx]
        · have := hdec tail fun c hc => (ht c hc).1
          rw [hx] at this
          rw [List.filter_cons]
          split
          · simp [this]
          · simp
      rw [h1, List.append_nil]
      have hcongr : ∀ (l : List Bytes) (f g : Bytes → Option Bytes), (∀ b ∈ l, f b = g b) → l.filterMap f = l.filterMap g := by
        intro l f g hfg
        induction l with
        | nil => rfl
        | cons b l ih =>
          simp only [List.mem_cons, forall_eq_or_imp] at hfg
          rw [List.filterMap_cons, List.filterMap_cons, hfg.1, ih hfg.2]
      exact hcongr _ _ _ fun b hbm => hdec b fun c hc => ((hb b hbm).1 c hc).1
    · intro p hp
      obtain ⟨b, hbm, rfl⟩ := List.mem_map.mp hp
      obtain ⟨c, hc, hc'⟩ := (hb b hbm).2
      have : c ∈ Der.joinLines b := List.mem_filter.mpr ⟨hc, by simpa using hc'⟩
      cases h : Der.joinLines b with
      | nil => rw [h] at this; simp at this
      | cons _ _ => rfl
  all_goals first
    | (intro b hbm
       obtain ⟨b', hb', rfl⟩ := List.mem_map.mp hbm
       exact hno b' fun c hc => ((hb b' hb').1 c hc).2)
    | exact hno tail fun c hc => (ht c hc).2

example : (∀ b ∈ [Der.ascii "AB\nCD", Der.ascii "EF"], Der.IsBody b) ∧ (∀ c ∈ [(10 : UInt8)], c < 128 ∧ c ≠ 45) ∧
    Der.joinLines [(10 : UInt8)] = [] := by
  unfold Der.IsBody
  decide

/-- C75, the round trip: if every body decodes, all of them come back. -/
theorem C75_roundtrip (x : Ext) (certs : List (Bytes × Bytes)) (tail : Bytes)
    (hb : ∀ p ∈ certs, Der.IsBody p.1 ∧ x.base64 (Der.joinLines p.1) = some p.2)
    (ht : ∀ c ∈ tail, c < 128 ∧ c ≠ 45) (hx : Der.joinLines tail = [] ∨ x.base64 (Der.joinLines tail) = none) :
    extractCerts x ((certs.map Prod.fst).flatMap Der.armour ++ tail) = certs.map Prod.snd := by
  rw [C75_extract x _ tail (by simpa using fun b v h => (hb (b, v) h).1) ht hx, List.filterMap_map]
  clear ht hx
  induction certs with
  | nil => rfl
  | cons p l ih =>
    simp only [List.mem_cons, forall_eq_or_imp] at hb
    rw [List.filterMap_cons, List.map_cons, ih hb.2]
    simp only [Function.comp, hb.1.2]

/-- Two bodies of several lines and the zero byte that Intel puts at the end. -/
example : (∀ b ∈ [Der.ascii "AB\nCD", Der.ascii "EF"], Der.IsBody b) ∧ ∀ c ∈ [(0 : UInt8)], c < 128 ∧ c ≠ 45 := by
  unfold Der.IsBody
  decide

/-! ### C77 Registering collateral never panics -/

/-- The full claim. It is false for the code (see `C77_refuted`). -/
def C77_Full : Prop := ∀ (c : Cfg) (s : Chain) (o : Origin) (data sig chain : Bytes),
  exec c s (.ext o (.registerTcbInfo data sig chain)) ≠ .error .panic ∧
  exec c s (.ext o (.registerQuotingEnclave data sig chain)) ≠ .error .panic

/-- Collateral issued before 1970 panics. -/
theorem C77_refuted : ¬ C77_Full := by
  intro h
  have h1 := (h { okCfg with ext := { okExt with parseDate := fun t => if t = "3" then some (-1) else readDate t } }
    Demo.start (.signed bob) (bytes 3 1) (bytes 64 1) pem).1
  have h2 : (match exec { okCfg with ext := { okExt with parseDate := fun t => if t = "3" then some (-1) else readDate t } }
      Demo.start (.ext (.signed bob) (.registerTcbInfo (bytes 3 1) (bytes 64 1) pem)) with
    | .error .panic => true | _ => false) = true := by decide +kernel
  split at h2
  · rename_i h3; exact h1 h3
  · cases h2

/-- C77, partial: there is no panic before the year 292 million if the dates in the collateral are not before 1970.
Missing: a check of the sign of the issue date. -/
theorem C77_no_panic_partial (c : Cfg) (s : Chain) (o : Origin) (data sig chain : Bytes) (hnow : s.now < 2 ^ 63) :
    ((∀ i, c.ext.parseTcbInfo data = some i → 0 ≤ i.issueDate) →
      exec c s (.ext o (.registerTcbInfo data sig chain)) ≠ .error .panic) ∧
    ((∀ i, c.ext.parseIdentity data = some i → 0 ≤ i.issueDate) →
      exec c s (.ext o (.registerQuotingEnclave data sig chain)) ≠ .error .panic) := by
  have hcerts : Teerex.verifyCollateralCerts c s chain ≠ .error .panic := by
    intro h
    simp only [Teerex.verifyCollateralCerts, bind_eq_error, ensure_eq_error, okOr_eq_error, mapErr_eq_error,
      verifyCertificateChain, reduceCtorEq, and_false, false_or, exists_false, or_false, ensure_eq_ok,
      decide_eq_true_eq, and_true, okOr_eq_ok] at h
    obtain ⟨_, hl, hh | ⟨_, _, _, _, hh⟩⟩ := h
    · rw [List.head?_eq_none_iff] at hh
      rw [hh] at hl; simp at hl
    · obtain ⟨e, ⟨_, rfl⟩, he⟩ := hh
      simp [Teerex.sgxErr] at he
  have htime : Teerex.timeToI64 s.now = .ok (s.now : Int) := by simp [Teerex.timeToI64, hnow]
  refine ⟨fun hi h => ?_, fun hi h => ?_⟩
  · simp only [exec, dispatch, Teerex.registerTcbInfo, Teerex.verifyTcbInfo, bind_eq_error, hcerts, false_or, reduceCtorEq,
      and_false, exists_false, or_false, mapErr_eq_error, mapErr_eq_ok, Teerex.sgxErr_panic, exists_eq_right, htime,
      Except.ok.injEq, exists_eq_left'] at h
    obtain (h | ⟨_, _, _, _, h⟩) := h
    · cases o <;> simp [ensureSigned] at h
    · rcases h with h | ⟨i, hd, h⟩
      · simp [deserializeTcbInfo, bind_eq_error, encodeAsDer_ne_panic, verifySignature] at h
      · split at h
        · rename_i hv
          simp only [deserializeTcbInfo, bind_eq_ok, okOr_eq_ok] at hd
          obtain ⟨_, _, _, _, hp⟩ := hd
          have h0 := hi i hp
          simp only [TcbInfo.isValid, Bool.and_eq_true, decide_eq_true_eq] at hv
          have h1 : (0 : Int) ≤ i.nextUpdate := by omega
          simp [TcbInfo.toChain, millisToU64, h0, h1] at h
        · simp at h
  · simp only [exec, dispatch, Teerex.registerQuotingEnclave, Teerex.verifyQuotingEnclave, bind_eq_error, hcerts, false_or, reduceCtorEq,
      and_false, exists_false, or_false, mapErr_eq_error, mapErr_eq_ok, Teerex.sgxErr_panic, exists_eq_right, htime,
      Except.ok.injEq, exists_eq_left'] at h
    obtain (h | ⟨_, _, _, _, h⟩) := h
    · cases o <;> simp [ensureSigned] at h
    · rcases h with h | ⟨i, hd, h⟩
      · simp [deserializeEnclaveIdentity, bind_eq_error, encodeAsDer_ne_panic] at h
      · split at h
        · rename_i hv
          simp only [deserializeEnclaveIdentity, bind_eq_ok, okOr_eq_ok] at hd
          obtain ⟨_, _, _, _, hp⟩ := hd
          have h0 := hi i hp
          simp only [EnclaveIdentity.isValid, Bool.and_eq_true, decide_eq_true_eq] at hv
          have h1 : (0 : Int) ≤ i.nextUpdate := by omega
          simp [EnclaveIdentity.toQuotingEnclave, millisToU64, h0, h1] at h
        · simp at h

example : Demo.start.now < 2 ^ 63 ∧ (∀ i, okCfg.ext.parseTcbInfo (bytes 3 1) = some i → 0 ≤ i.issueDate) ∧
    (okCfg.ext.parseTcbInfo (bytes 3 1)).isSome = true := by
  have h : ((okCfg.ext.parseTcbInfo (bytes 3 1)).all fun i => 0 ≤ i.issueDate) = true := by decide +kernel
  refine ⟨by decide, fun i hi => ?_, by decide +kernel⟩
  rw [hi] at h; simpa using h

/-! ### C86 Reading the TCB info of a quote never panics -/

/-- The full claim. It is false for the code (see `C86_refuted`). -/
def C86_Full : Prop := ∀ (x : Ext) (raw : Bytes), extractTcbInfoFromRawDcapQuote x raw ≠ .error .panic

/-- A quote without a single decodable certificate panics. -/
theorem C86_refuted : ¬ C86_Full := by
  intro h
  have key : (match extractTcbInfoFromRawDcapQuote { okExt with base64 := fun _ => none } (quote 0 alice.val) with
    | .error .panic => true
    | _ => false) = true := by decide +kernel
  split at key
  · rename_i he; exact h _ _ he
  · simp at key

/-- C86, partial: the panic happens exactly for well-formed quotes without certificates. Missing: a check of the number
of certificates, as in the verification. -/
theorem C86_panic_partial (x : Ext) (raw : Bytes) :
    extractTcbInfoFromRawDcapQuote x raw = .error .panic ↔
      ∃ q rest, decodeDcapQuote raw = some (q, rest) ∧ q.header.version = 3 ∧ q.header.attestationKeyType = 2 ∧
        q.certData.dataType = 5 ∧ extractCerts x q.certData.data = [] := by
  simp [extractTcbInfoFromRawDcapQuote, bind_eq_error, extractTcbInfo_ne_panic]

example : (extractTcbInfoFromRawDcapQuote okExt (quote 0 alice.val)).isOk = true := by decide +kernel

end Verif
