import Verif.Proofs.Quote
import Verif.Proofs.Pem

/-!
# Verification of quotes: exact acceptance and absence of panics
-/

namespace Verif

theorem slice?_eq_some {l r : Bytes} {off len : Nat} :
    slice? l off len = some r ↔ off + len ≤ l.length ∧ r = sub l off len := by
  unfold slice? sub
  split <;> rename_i h <;> simp [h]
  exact eq_comm

theorem slice?_eq_none {l : Bytes} {off len : Nat} :
    slice? l off len = none ↔ l.length < off + len := by
  unfold slice?
  split <;> rename_i h <;> simp <;> omega

theorem getD_sub {l : Bytes} {off len i : Nat} (h : i < len) : (sub l off len).getD i 0 = l.getD (off + i) 0 := by
  simp [sub, List.getD_eq_getElem?_getD, List.getElem?_take, h, List.getElem?_drop]

theorem leNat_sub_lt (l : Bytes) (off n : Nat) : leNat (sub l off n) < 256 ^ n := by
  refine Nat.lt_of_lt_of_le (leNat_lt _) (Nat.pow_le_pow_right (by omega) ?_)
  simp only [sub, List.length_take]
  omega

theorem take_leNat_lt (l : Bytes) (n : Nat) : leNat (l.take n) < 256 ^ n := by
  refine Nat.lt_of_lt_of_le (leNat_lt _) (Nat.pow_le_pow_right (by omega) ?_)
  simp only [List.length_take]
  omega

theorem and_eq_iff_testBit {n a b d : Nat} (ha : a < 2 ^ n) (hd : d < 2 ^ n) :
    a &&& b = d ↔ ∀ k < n, (a.testBit k && b.testBit k) = d.testBit k := by
  constructor
  · rintro rfl k _; simp
  · intro h
    apply Nat.eq_of_testBit_eq
    intro k
    rw [Nat.testBit_and]
    by_cases hk : k < n
    · exact h k hk
    · have h1 : 2 ^ n ≤ 2 ^ k := Nat.pow_le_pow_right (by omega) (by omega)
      rw [Nat.testBit_lt_two_pow (Nat.lt_of_lt_of_le ha h1), Nat.testBit_lt_two_pow (Nat.lt_of_lt_of_le hd h1)]
      simp

theorem and_two_iff (n : Nat) : n &&& 2 = 2 ↔ n.testBit 1 = true := by
  constructor
  · intro h
    have := congrArg (fun m => Nat.testBit m 1) h
    have h2 : Nat.testBit 2 1 = true := by decide
    simpa [Nat.testBit_and, h2] using this
  · intro h
    apply Nat.eq_of_testBit_eq
    intro k
    rw [Nat.testBit_and]
    rcases Nat.lt_trichotomy k 1 with hk | rfl | hk
    · have : k = 0 := by omega
      subst this; simp [Nat.testBit, Nat.shiftRight]
    · simp [h]
    · have h1 : 2 ^ 2 ≤ 2 ^ k := Nat.pow_le_pow_right (by omega) (by omega)
      rw [Nat.testBit_lt_two_pow (i := k) (x := 2) (by omega)]; simp

theorem buildMode_debug (r : SgxReportBody) : r.buildMode = .debug ↔ r.attrFlags.testBit 1 = true := by
  rw [← and_two_iff]
  unfold SgxReportBody.buildMode
  split <;> simp_all

theorem reportBody_verify {raw : Bytes} {off : Nat} {r : SgxReportBody} (hr : ReportAt raw off r)
    (o : SgxQuotingEnclave) : r.verify o = true ↔ QeMatches raw off o := by
  have h1 : r.verify o = true ↔ (r.isvProdId = o.isvprodid ∧ r.mrSigner = o.mrsigner) ∧
      r.verifyMiscSelect o = true ∧ r.verifyAttributes o = true ∧ (∃ v ∈ o.tcb, v ≤ r.isvSvn) := by
    unfold SgxReportBody.verify
    split
    · rename_i h; simp only [Bool.false_eq_true, false_iff]; rintro ⟨⟨h1, h2⟩, _⟩; simp [h1, h2] at h
    · rename_i h
      simp only [ne_eq, not_or, Decidable.not_not] at h
      split
      · rename_i h2; simp only [Bool.not_eq_eq_eq_not, Bool.not_true] at h2; simp [h2]
      · rename_i h2
        split
        · rename_i h3; simp only [Bool.not_eq_eq_eq_not, Bool.not_true] at h3; simp [h3]
        · rename_i h3
          simp only [Bool.not_eq_eq_eq_not, Bool.not_true, Bool.not_eq_false] at h2 h3
          simp [h, h2, h3]
  have hm : r.verifyMiscSelect o = true ↔ ∀ i < 4, (raw.getD (off + 16 + i) 0 &&& o.miscselectMask.val.getD i 0) =
      (o.miscselect.val.getD i 0 &&& o.miscselectMask.val.getD i 0) := by
    unfold SgxReportBody.verifyMiscSelect
    simp only [List.all_eq_true, List.mem_range, beq_iff_eq, hr.miscSelect]
    constructor
    · intro h i hi; rw [← getD_sub hi]; exact h i hi
    · intro h i hi; rw [getD_sub hi]; exact h i hi
  have hf : r.verifyAttributes o = true ↔ ∀ k < 64,
      ((leNat (sub raw (off + 48) 8)).testBit k && (leNat (o.attributesMask.val.take 8)).testBit k) =
        (leNat (o.attributes.val.take 8)).testBit k := by
    unfold SgxReportBody.verifyAttributes
    simp only [beq_iff_eq, hr.attrFlags, SgxQuotingEnclave.flagsMask, SgxQuotingEnclave.flags]
    exact and_eq_iff_testBit (n := 64) (leNat_sub_lt _ _ 8) (take_leNat_lt _ 8)
  rw [h1, hm, hf, Subtype.ext_iff, hr.isvProdId, hr.mrSigner, hr.isvSvn]
  constructor
  · rintro ⟨⟨h1, h2⟩, h3, h4, h5⟩; exact ⟨h1, h2, h3, h4, h5⟩
  · rintro ⟨h1, h2, h3, h4, h5⟩; exact ⟨⟨h1, h2⟩, h3, h4, h5⟩

theorem encodeAsDer_ne_panic (d : Bytes) : encodeAsDer d ≠ .error .panic := by
  unfold encodeAsDer
  split
  · simp
  · dsimp only; split <;> simp

theorem getPcesvn_ne_panic (d : Bytes) : getPcesvn d ≠ .error .panic := by
  intro h
  unfold getPcesvn at h
  simp only [bind_eq_error, okOr_eq_error, okOr_eq_ok, ensure_eq_error, ensure_eq_ok, reduceCtorEq, and_false,
    false_or, Prod.exists, exists_const] at h
  obtain ⟨off, _, len, off', _, hlen, data, hd, h⟩ := h
  obtain ⟨hl, rfl⟩ := slice?_eq_some.mp hd
  have hdl := sub_length hl
  simp only [Bool.or_eq_true, beq_iff_eq] at hlen
  split at h
  · simp at h
  · simp at h
  · rename_i h1 h2
    match hs : sub d (off' + 1) len with
    | [] => rw [hs] at hdl; simp at hdl; omega
    | [a] => exact h1 _ hs
    | [a, b] => exact h2 _ _ hs
    | a :: b :: e :: l => rw [hs] at hdl; simp at hdl; omega

theorem extractTcbInfo_ne_panic (x : Ext) (cert : Bytes) : extractTcbInfo x cert ≠ .error .panic := by
  intro h
  unfold extractTcbInfo getIntelExtension getFmspc getCpusvn at h
  simp only [bind_eq_error, okOr_eq_error, okOr_eq_ok, ensure_eq_error, ensure_eq_ok, reduceCtorEq, and_false,
    false_or, Prod.exists, exists_const, or_false, exists_false] at h
  rcases h with ⟨e, _, h⟩ | ⟨_, _, _, _, _, _, h⟩
  · split at h <;> simp at h
  · exact getPcesvn_ne_panic _ h

theorem verifyDcapQuote_ne_panic (x : Ext) (raw : Bytes) (time : Nat) (qe : SgxQuotingEnclave) :
    verifyDcapQuote x raw time qe ≠ .error .panic := by
  intro h
  unfold verifyDcapQuote verifyCertificateChain verifySignature index at h
  simp only [bind_eq_error, okOr_eq_error, okOr_eq_ok, ensure_eq_error, ensure_eq_ok, reduceCtorEq, and_false,
    false_or, Prod.exists, exists_const, or_false, exists_false, encodeAsDer_ne_panic, extractTcbInfo_ne_panic,
    decide_eq_true_eq, slice?_eq_none, slice?_eq_some] at h
  obtain ⟨q, rest, hq, _, _, _, _, h2, h⟩ := h
  obtain ⟨hq, hl, _⟩ := decodeDcapQuote_iff.mp hq
  have hc := extractCerts_two h2
  rw [hq.certData, sub_length (by omega)] at hc
  rcases h with h | ⟨_, _, _, _, _, _, _, h⟩
  · cases hx : extractCerts x q.certData.data with
    | nil => rw [hx] at h2; simp at h2
    | cons a l => rw [hx] at h; simp at h
  · rcases h with ⟨h, _⟩ | ⟨_, _, h⟩
    · omega
    · rcases h with ⟨h, _⟩ | ⟨_, _, h⟩
      · omega
      · obtain ⟨_, h⟩ := h
        omega

theorem verifyIasReport_ne_panic (x : Ext) (der : Bytes) : verifyIasReport x der ≠ .error .panic := by
  intro h
  unfold verifyIasReport verifySignature verifyServerCert parseReport at h
  simp only [bind_eq_error, okOr_eq_error, okOr_eq_ok, ensure_eq_error, ensure_eq_ok, reduceCtorEq, and_false,
    false_or, Prod.exists, exists_const, or_false, exists_false] at h

theorem reportAt_exists {raw : Bytes} {off : Nat} (h : off + 384 ≤ raw.length) : ∃ r, ReportAt raw off r :=
  ⟨{ cpuSvn := ⟨sub raw off 16, sub_length (by omega)⟩
     miscSelect := ⟨sub raw (off + 16) 4, sub_length (by omega)⟩
     reserved1 := ⟨sub raw (off + 20) 12, sub_length (by omega)⟩
     isvExtProdId := ⟨sub raw (off + 32) 16, sub_length (by omega)⟩
     attrFlags := leNat (sub raw (off + 48) 8)
     attrXfrm := leNat (sub raw (off + 56) 8)
     mrEnclave := ⟨sub raw (off + 64) 32, sub_length (by omega)⟩
     reserved2 := ⟨sub raw (off + 96) 32, sub_length (by omega)⟩
     mrSigner := ⟨sub raw (off + 128) 32, sub_length (by omega)⟩
     reserved3 := ⟨sub raw (off + 160) 32, sub_length (by omega)⟩
     configId := ⟨sub raw (off + 192) 64, sub_length (by omega)⟩
     isvProdId := leNat (sub raw (off + 256) 2)
     isvSvn := leNat (sub raw (off + 258) 2)
     configSvn := leNat (sub raw (off + 260) 2)
     reserved4 := ⟨sub raw (off + 262) 42, sub_length (by omega)⟩
     isvFamilyId := ⟨sub raw (off + 304) 16, sub_length (by omega)⟩
     reportData := ⟨sub raw (off + 320) 64, sub_length (by omega)⟩ },
   ⟨rfl, rfl, rfl, rfl, rfl, rfl, rfl, rfl, rfl, rfl, rfl, rfl, rfl, rfl, rfl, rfl, rfl⟩⟩

theorem quoteAt_exists {raw : Bytes} (h : 1014 + authSize raw + 6 + certSize raw ≤ raw.length)
    (hc : certSize raw ≤ 65000) : ∃ q, QuoteAt raw q := by
  obtain ⟨r1, h1⟩ := reportAt_exists (raw := raw) (off := 48) (by omega)
  obtain ⟨r2, h2⟩ := reportAt_exists (raw := raw) (off := 564) (by omega)
  exact ⟨{
    header := {
      version := leNat (sub raw 0 2), attestationKeyType := leNat (sub raw 2 2), reserved := leNat (sub raw 4 4)
      qeSvn := leNat (sub raw 8 2), pceSvn := leNat (sub raw 10 2)
      qeVendorId := ⟨sub raw 12 16, sub_length (by omega)⟩, userData := ⟨sub raw 28 20, sub_length (by omega)⟩ }
    body := r1
    signatureDataLen := leNat (sub raw 432 4)
    isvReportSignature := ⟨sub raw 436 64, sub_length (by omega)⟩
    attestationKey := ⟨sub raw 500 64, sub_length (by omega)⟩
    qeReport := r2
    qeReportSignature := ⟨sub raw 948 64, sub_length (by omega)⟩
    authData := { size := authSize raw, data := sub raw 1014 (authSize raw) }
    certData := { dataType := leNat (sub raw (1014 + authSize raw) 2), size := certSize raw
                  data := sub raw (1014 + authSize raw + 6) (certSize raw) } },
    ⟨rfl, rfl, rfl, rfl, rfl, rfl, rfl, h1, rfl, rfl, rfl, h2, rfl, rfl, rfl, rfl, rfl, hc, rfl⟩⟩

theorem take_sub {l : Bytes} {off n m : Nat} (h : m ≤ n) : (sub l off n).take m = sub l off m := by
  simp [sub, List.take_take, Nat.min_eq_left h]

theorem verifyDcapQuote_ok {x : Ext} {raw : Bytes} {time : Nat} {qe : SgxQuotingEnclave} {f : Fmspc}
    {t : TcbVersionStatus} {r : SgxVerifiedReport} :
    verifyDcapQuote x raw time qe = .ok (f, t, r) ↔ AuthenticQuote x raw time qe f t r := by
  unfold verifyDcapQuote verifyCertificateChain verifySignature index
  simp only [bind_eq_ok, okOr_eq_ok, ensure_eq_ok, Prod.exists, exists_const, decide_eq_true_eq,
    slice?_eq_some, beq_iff_eq, Except.ok.injEq, Prod.mk.injEq, Nat.reduceAdd]
  constructor
  · rintro ⟨q, rest, hd, hv, hk, hct, hqe, h2, leaf, hleaf, hp, hchain, f', t', htcb, _, ⟨_, rfl⟩, _, ⟨_, rfl⟩,
      hhash, _, ⟨_, rfl⟩, _, ⟨_, rfl⟩, hsig, der, hder, hcs, hrest, rfl, rfl, rfl⟩
    obtain ⟨hq, hl, rfl⟩ := decodeDcapQuote_iff.mp hd
    rw [reportBody_verify hq.qeReport] at hqe
    rw [hq.certData] at h2 hleaf hchain
    have hlen : raw.length = 1014 + authSize raw + 6 + certSize raw := by
      simp only [List.isEmpty_iff, List.drop_eq_nil_iff] at hrest; omega
    refine ⟨hlen, hq.certBound, hq.version ▸ hv, hq.keyType ▸ hk, hq.certType ▸ hct, hqe, ?_, ?_, ?_,
      hq.body.mrEnclave, hq.body.mrSigner, hq.body.reportData, ?_, rfl, rfl⟩
    · have e : 1014 + authSize raw + 6 = 1020 + authSize raw := by omega
      rw [e] at h2 hleaf hchain
      generalize extractCerts x (sub raw (1020 + authSize raw) (certSize raw)) = l at *
      match l, h2, hleaf with
      | a :: b :: l', _, hleaf =>
        simp only [List.head?_cons, Option.some.injEq] at hleaf
        subst hleaf
        exact ⟨a, b, l', der, rfl, hp, hchain, htcb, hq.qeSig ▸ hder, hcs⟩
    · rw [hhash, hq.qeReport.reportData, take_sub (by omega)]
    · rw [hq.key, hq.isvSig] at hsig; exact hsig
    · rw [buildMode_debug, hq.body.attrFlags]
  · intro h
    obtain ⟨leaf, i, inter, sig, hcerts, hp, hchain, htcb, hder, hcs⟩ := h.leaf
    have hlen := h.length
    obtain ⟨q, hq⟩ := quoteAt_exists (raw := raw) (by omega) h.certBound
    have e : 1014 + authSize raw + 6 = 1020 + authSize raw := by omega
    have hc : 27 ≤ certSize raw := by
      have := extractCerts_two (x := x) (d := sub raw (1020 + authSize raw) (certSize raw)) (by simp [hcerts])
      rwa [sub_length (by omega)] at this
    refine ⟨q, [], ?_, hq.version ▸ h.version, hq.keyType ▸ h.keyType, hq.certType ▸ h.certType,
      (reportBody_verify hq.qeReport _).mpr h.qeMatches, ?_, leaf, ?_, hp, ?_, f, t, htcb, _, ⟨by omega, rfl⟩, _,
      ⟨by omega, rfl⟩, ?_, _, ⟨by omega, rfl⟩, _, ⟨by omega, rfl⟩, ?_, sig, ?_, hcs, rfl, rfl, rfl, ?_⟩
    · rw [decodeDcapQuote_iff]
      exact ⟨hq, by omega, by rw [← hlen, List.drop_length]⟩
    · rw [hq.certData, e, hcerts]; simp
    · rw [hq.certData, e, hcerts]; simp
    · rw [hq.certData, e, hcerts]; exact hchain
    · rw [h.keyHash, hq.qeReport.reportData, take_sub (by omega)]
    · rw [hq.key, hq.isvSig]; exact h.bodySig
    · rw [hq.qeSig]; exact hder
    · have hb : q.body.buildMode = r.buildMode := by
        have h1 := buildMode_debug q.body
        rw [hq.body.attrFlags, ← h.buildMode] at h1
        cases hx : q.body.buildMode <;> cases hy : r.buildMode <;> simp_all
      have h1 : q.body.mrEnclave = r.mrEnclave := Subtype.ext (hq.body.mrEnclave.trans h.mrEnclave.symm)
      have h2 : q.body.mrSigner = r.mrSigner := Subtype.ext (hq.body.mrSigner.trans h.mrSigner.symm)
      have h3 : q.body.reportData = r.reportData := Subtype.ext (hq.body.reportData.trans h.reportData.symm)
      rw [hb, h1, h2, h3, ← h.status, ← h.timestamp]

/-! ### IAS -/

theorem decodeSgxQuote_iff {raw : Bytes} {r : SgxReportBody} {b : Bytes} :
    decodeSgxQuote raw = some (r, b) ↔ 48 + 384 ≤ raw.length ∧ ReportAt raw 48 r ∧ b = raw.drop (48 + 384) := by
  constructor
  · intro h
    have h : decodeSgxQuote (raw.drop 0) = some (r, b) := by simpa using h
    simp only [decodeSgxQuote, Option.bind_eq_bind, Option.bind_eq_some_iff, Prod.exists] at h
    obtain ⟨x1, b1, h1, x2, b2, h2, x3, b3, h3, x4, b4, h4, x5, b5, h5, x6, b6, h6, x7, b7, h7, h8⟩ := h
    obtain ⟨_, e1, rfl⟩ := (rdLE_drop (by omega)).mp h1
    obtain ⟨_, e2, rfl⟩ := (rdLE_drop (by omega)).mp h2
    obtain ⟨_, e3, rfl⟩ := (rdLE_drop (by omega)).mp h3
    obtain ⟨_, e4, rfl⟩ := (rdLE_drop (by omega)).mp h4
    obtain ⟨_, e5, rfl⟩ := (rdLE_drop (by omega)).mp h5
    obtain ⟨_, e6, rfl⟩ := (rdLE_drop (by omega)).mp h6
    obtain ⟨hl, e7, rfl⟩ := (rdArr_drop (by omega)).mp h7
    simp only [Nat.zero_add, Nat.reduceAdd] at *
    exact decodeReportBody_drop.mp h8
  · rintro h
    have hl := h.1
    have h1 := (rdLE_drop (raw := raw) (off := 0) (n := 2) (by omega)).mpr ⟨by omega, rfl, rfl⟩
    have h2 := (rdLE_drop (raw := raw) (off := 2) (n := 2) (by omega)).mpr ⟨by omega, rfl, rfl⟩
    have h3 := (rdLE_drop (raw := raw) (off := 4) (n := 4) (by omega)).mpr ⟨by omega, rfl, rfl⟩
    have h4 := (rdLE_drop (raw := raw) (off := 8) (n := 2) (by omega)).mpr ⟨by omega, rfl, rfl⟩
    have h5 := (rdLE_drop (raw := raw) (off := 10) (n := 2) (by omega)).mpr ⟨by omega, rfl, rfl⟩
    have h6 := (rdLE_drop (raw := raw) (off := 12) (n := 4) (by omega)).mpr ⟨by omega, rfl, rfl⟩
    have h7 := (rdArr_drop (raw := raw) (off := 16) (n := 32) (x := ⟨sub raw 16 32, sub_length (by omega)⟩)
      (by omega)).mpr ⟨by omega, rfl, rfl⟩
    simp only [List.drop_zero, Nat.zero_add, Nat.reduceAdd] at *
    simp only [decodeSgxQuote, Option.bind_eq_bind, h1, h2, h3, h4, h5, h6, h7, Option.bind_some]
    exact decodeReportBody_drop.mpr h

end Verif
