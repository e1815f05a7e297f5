import Verif.Proofs.Inversion
import Verif.Spec.Quote

/-!
# Decoding of quotes
-/

namespace Verif

theorem rdArr_drop {raw : Bytes} {off n : Nat} (hn : 0 < n) {x : Arr n} {b : Bytes} :
    rdArr n (raw.drop off) = some (x, b) ↔
      off + n ≤ raw.length ∧ x.val = sub raw off n ∧ b = raw.drop (off + n) := by
  unfold rdArr sub
  split
  · rename_i h
    simp only [List.length_drop] at h
    simp only [Option.some.injEq, Prod.mk.injEq, List.drop_drop, Subtype.ext_iff]
    constructor
    · rintro ⟨h1, h2⟩; exact ⟨by omega, h1.symm, h2.symm⟩
    · rintro ⟨_, h1, h2⟩; exact ⟨h1.symm, h2.symm⟩
  · rename_i h
    simp only [List.length_drop] at h
    simp only [reduceCtorEq, false_iff]
    omega

theorem rdLE_drop {raw : Bytes} {off n : Nat} (hn : 0 < n) {x : Nat} {b : Bytes} :
    rdLE n (raw.drop off) = some (x, b) ↔
      off + n ≤ raw.length ∧ x = leNat (sub raw off n) ∧ b = raw.drop (off + n) := by
  unfold rdLE sub
  split
  · rename_i h
    simp only [List.length_drop] at h
    simp only [Option.some.injEq, Prod.mk.injEq, List.drop_drop]
    constructor
    · rintro ⟨h1, h2⟩; exact ⟨by omega, h1.symm, h2.symm⟩
    · rintro ⟨_, h1, h2⟩; exact ⟨h1.symm, h2.symm⟩
  · rename_i h
    simp only [List.length_drop] at h
    simp only [reduceCtorEq, false_iff]
    omega

theorem rd_drop {raw : Bytes} {off n : Nat} (ho : off ≤ raw.length) {x : Bytes} {b : Bytes} :
    rd n (raw.drop off) = some (x, b) ↔
      off + n ≤ raw.length ∧ x = sub raw off n ∧ b = raw.drop (off + n) := by
  unfold rd sub
  split
  · rename_i h
    simp only [List.length_drop] at h
    simp only [Option.some.injEq, Prod.mk.injEq, List.drop_drop]
    constructor
    · rintro ⟨h1, h2⟩; exact ⟨by omega, h1.symm, h2.symm⟩
    · rintro ⟨_, h1, h2⟩; exact ⟨h1.symm, h2.symm⟩
  · rename_i h
    simp only [List.length_drop] at h
    simp only [reduceCtorEq, false_iff]
    omega

theorem sub_length {raw : Bytes} {off n : Nat} (h : off + n ≤ raw.length) : (sub raw off n).length = n := by
  simp only [sub, List.length_take, List.length_drop]; omega

theorem decodeReportBody_drop {raw : Bytes} {off : Nat} {r : SgxReportBody} {b : Bytes} :
    decodeReportBody (raw.drop off) = some (r, b) ↔
      off + 384 ≤ raw.length ∧ ReportAt raw off r ∧ b = raw.drop (off + 384) := by
  constructor
  · intro h
    simp only [decodeReportBody, Option.bind_eq_bind, Option.bind_eq_some_iff, Prod.exists,
      Option.some.injEq, Prod.mk.injEq] at h
    obtain ⟨x1, b1, h1, x2, b2, h2, x3, b3, h3, x4, b4, h4, x5, b5, h5, x6, b6, h6, x7, b7, h7, x8, b8, h8,
      x9, b9, h9, x10, b10, h10, x11, b11, h11, x12, b12, h12, x13, b13, h13, x14, b14, h14, x15, b15, h15,
      x16, b16, h16, x17, b17, h17, rfl, rfl⟩ := h
    obtain ⟨_, e1, rfl⟩ := (rdArr_drop (by omega)).mp h1
    obtain ⟨_, e2, rfl⟩ := (rdArr_drop (by omega)).mp h2
    obtain ⟨_, e3, rfl⟩ := (rdArr_drop (by omega)).mp h3
    obtain ⟨_, e4, rfl⟩ := (rdArr_drop (by omega)).mp h4
    obtain ⟨_, e5, rfl⟩ := (rdLE_drop (by omega)).mp h5
    obtain ⟨_, e6, rfl⟩ := (rdLE_drop (by omega)).mp h6
    obtain ⟨_, e7, rfl⟩ := (rdArr_drop (by omega)).mp h7
    obtain ⟨_, e8, rfl⟩ := (rdArr_drop (by omega)).mp h8
    obtain ⟨_, e9, rfl⟩ := (rdArr_drop (by omega)).mp h9
    obtain ⟨_, e10, rfl⟩ := (rdArr_drop (by omega)).mp h10
    obtain ⟨_, e11, rfl⟩ := (rdArr_drop (by omega)).mp h11
    obtain ⟨_, e12, rfl⟩ := (rdLE_drop (by omega)).mp h12
    obtain ⟨_, e13, rfl⟩ := (rdLE_drop (by omega)).mp h13
    obtain ⟨_, e14, rfl⟩ := (rdLE_drop (by omega)).mp h14
    obtain ⟨_, e15, rfl⟩ := (rdArr_drop (by omega)).mp h15
    obtain ⟨_, e16, rfl⟩ := (rdArr_drop (by omega)).mp h16
    obtain ⟨hl, e17, rfl⟩ := (rdArr_drop (by omega)).mp h17
    simp only [Nat.add_assoc, Nat.reduceAdd] at *
    exact ⟨hl, ⟨e1, e2, e3, e4, e5, e6, e7, e8, e9, e10, e11, e12, e13, e14, e15, e16, e17⟩, trivial⟩
  · rintro ⟨hl, ⟨e1, e2, e3, e4, e5, e6, e7, e8, e9, e10, e11, e12, e13, e14, e15, e16, e17⟩, rfl⟩
    have h1 := (rdArr_drop (raw := raw) (off := off) (n := 16) (by omega)).mpr ⟨by omega, e1, rfl⟩
    have h2 := (rdArr_drop (raw := raw) (off := off + 16) (n := 4) (by omega)).mpr ⟨by omega, e2, rfl⟩
    have h3 := (rdArr_drop (raw := raw) (off := off + 20) (n := 12) (by omega)).mpr ⟨by omega, e3, rfl⟩
    have h4 := (rdArr_drop (raw := raw) (off := off + 32) (n := 16) (by omega)).mpr ⟨by omega, e4, rfl⟩
    have h5 := (rdLE_drop (raw := raw) (off := off + 48) (n := 8) (by omega)).mpr ⟨by omega, e5, rfl⟩
    have h6 := (rdLE_drop (raw := raw) (off := off + 56) (n := 8) (by omega)).mpr ⟨by omega, e6, rfl⟩
    have h7 := (rdArr_drop (raw := raw) (off := off + 64) (n := 32) (by omega)).mpr ⟨by omega, e7, rfl⟩
    have h8 := (rdArr_drop (raw := raw) (off := off + 96) (n := 32) (by omega)).mpr ⟨by omega, e8, rfl⟩
    have h9 := (rdArr_drop (raw := raw) (off := off + 128) (n := 32) (by omega)).mpr ⟨by omega, e9, rfl⟩
    have h10 := (rdArr_drop (raw := raw) (off := off + 160) (n := 32) (by omega)).mpr ⟨by omega, e10, rfl⟩
    have h11 := (rdArr_drop (raw := raw) (off := off + 192) (n := 64) (by omega)).mpr ⟨by omega, e11, rfl⟩
    have h12 := (rdLE_drop (raw := raw) (off := off + 256) (n := 2) (by omega)).mpr ⟨by omega, e12, rfl⟩
    have h13 := (rdLE_drop (raw := raw) (off := off + 258) (n := 2) (by omega)).mpr ⟨by omega, e13, rfl⟩
    have h14 := (rdLE_drop (raw := raw) (off := off + 260) (n := 2) (by omega)).mpr ⟨by omega, e14, rfl⟩
    have h15 := (rdArr_drop (raw := raw) (off := off + 262) (n := 42) (by omega)).mpr ⟨by omega, e15, rfl⟩
    have h16 := (rdArr_drop (raw := raw) (off := off + 304) (n := 16) (by omega)).mpr ⟨by omega, e16, rfl⟩
    have h17 := (rdArr_drop (raw := raw) (off := off + 320) (n := 64) (by omega)).mpr ⟨by omega, e17, rfl⟩
    simp only [Nat.add_assoc, Nat.reduceAdd] at *
    simp only [decodeReportBody, Option.bind_eq_bind, h1, h2, h3, h4, h5, h6, h7, h8, h9, h10, h11, h12, h13,
      h14, h15, h16, h17, Option.bind_some]

/-- The header and the variable part of a quote. -/
structure QuoteAt (raw : Bytes) (q : DcapQuote) : Prop where
  version : q.header.version = leNat (sub raw 0 2)
  keyType : q.header.attestationKeyType = leNat (sub raw 2 2)
  reserved : q.header.reserved = leNat (sub raw 4 4)
  qeSvn : q.header.qeSvn = leNat (sub raw 8 2)
  pceSvn : q.header.pceSvn = leNat (sub raw 10 2)
  qeVendorId : q.header.qeVendorId.val = sub raw 12 16
  userData : q.header.userData.val = sub raw 28 20
  body : ReportAt raw 48 q.body
  sigLen : q.signatureDataLen = leNat (sub raw 432 4)
  isvSig : q.isvReportSignature.val = sub raw 436 64
  key : q.attestationKey.val = sub raw 500 64
  qeReport : ReportAt raw 564 q.qeReport
  qeSig : q.qeReportSignature.val = sub raw 948 64
  authSz : q.authData.size = authSize raw
  authData : q.authData.data = sub raw 1014 (authSize raw)
  certType : q.certData.dataType = leNat (sub raw (1014 + authSize raw) 2)
  certSz : q.certData.size = certSize raw
  certBound : certSize raw ≤ 65000
  certData : q.certData.data = sub raw (1014 + authSize raw + 6) (certSize raw)

theorem decodeHeader_drop {raw : Bytes} {h : DcapQuoteHeader} {b : Bytes} :
    decodeHeader (raw.drop 0) = some (h, b) ↔ 48 ≤ raw.length ∧ b = raw.drop 48 ∧
      h.version = leNat (sub raw 0 2) ∧ h.attestationKeyType = leNat (sub raw 2 2) ∧
      h.reserved = leNat (sub raw 4 4) ∧ h.qeSvn = leNat (sub raw 8 2) ∧ h.pceSvn = leNat (sub raw 10 2) ∧
      h.qeVendorId.val = sub raw 12 16 ∧ h.userData.val = sub raw 28 20 := by
  constructor
  · intro h
    simp only [decodeHeader, Option.bind_eq_bind, Option.bind_eq_some_iff, Prod.exists,
      Option.some.injEq, Prod.mk.injEq] at h
    obtain ⟨x1, b1, h1, x2, b2, h2, x3, b3, h3, x4, b4, h4, x5, b5, h5, x6, b6, h6, x7, b7, h7, rfl, rfl⟩ := h
    obtain ⟨_, e1, rfl⟩ := (rdLE_drop (by omega)).mp h1
    obtain ⟨_, e2, rfl⟩ := (rdLE_drop (by omega)).mp h2
    obtain ⟨_, e3, rfl⟩ := (rdLE_drop (by omega)).mp h3
    obtain ⟨_, e4, rfl⟩ := (rdLE_drop (by omega)).mp h4
    obtain ⟨_, e5, rfl⟩ := (rdLE_drop (by omega)).mp h5
    obtain ⟨_, e6, rfl⟩ := (rdArr_drop (by omega)).mp h6
    obtain ⟨hl, e7, rfl⟩ := (rdArr_drop (by omega)).mp h7
    simp only [Nat.zero_add, Nat.reduceAdd] at *
    exact ⟨hl, trivial, e1, e2, e3, e4, e5, e6, e7⟩
  · rintro ⟨hl, rfl, e1, e2, e3, e4, e5, e6, e7⟩
    have h1 := (rdLE_drop (raw := raw) (off := 0) (n := 2) (by omega)).mpr ⟨by omega, e1, rfl⟩
    have h2 := (rdLE_drop (raw := raw) (off := 2) (n := 2) (by omega)).mpr ⟨by omega, e2, rfl⟩
    have h3 := (rdLE_drop (raw := raw) (off := 4) (n := 4) (by omega)).mpr ⟨by omega, e3, rfl⟩
    have h4 := (rdLE_drop (raw := raw) (off := 8) (n := 2) (by omega)).mpr ⟨by omega, e4, rfl⟩
    have h5 := (rdLE_drop (raw := raw) (off := 10) (n := 2) (by omega)).mpr ⟨by omega, e5, rfl⟩
    have h6 := (rdArr_drop (raw := raw) (off := 12) (n := 16) (by omega)).mpr ⟨by omega, e6, rfl⟩
    have h7 := (rdArr_drop (raw := raw) (off := 28) (n := 20) (by omega)).mpr ⟨by omega, e7, rfl⟩
    simp only [Nat.zero_add, Nat.reduceAdd] at *
    simp only [decodeHeader, Option.bind_eq_bind, h1, h2, h3, h4, h5, h6, h7, Option.bind_some]

theorem decodeAuthData_drop {raw : Bytes} {off : Nat} {a : QeAuthenticationData} {b : Bytes} :
    decodeAuthData (raw.drop off) = some (a, b) ↔ off + 2 + leNat (sub raw off 2) ≤ raw.length ∧
      a.size = leNat (sub raw off 2) ∧ a.data = sub raw (off + 2) (leNat (sub raw off 2)) ∧
      b = raw.drop (off + 2 + leNat (sub raw off 2)) := by
  constructor
  · intro h
    simp only [decodeAuthData, Option.bind_eq_bind, Option.bind_eq_some_iff, Prod.exists,
      Option.some.injEq, Prod.mk.injEq] at h
    obtain ⟨x1, b1, h1, x2, b2, h2, rfl, rfl⟩ := h
    obtain ⟨hl, rfl, rfl⟩ := (rdLE_drop (by omega)).mp h1
    obtain ⟨hl, rfl, rfl⟩ := (rd_drop hl).mp h2
    exact ⟨hl, rfl, rfl, rfl⟩
  · rintro ⟨hl, e1, e2, rfl⟩
    have h1 := (rdLE_drop (raw := raw) (off := off) (n := 2) (by omega)).mpr ⟨by omega, e1, rfl⟩
    rw [← e1] at hl e2 ⊢
    have h2 := (rd_drop (raw := raw) (off := off + 2) (n := a.size) (by omega)).mpr ⟨by omega, e2, rfl⟩
    simp only [decodeAuthData, Option.bind_eq_bind, h1, h2, Option.bind_some]

theorem decodeCertData_drop {raw : Bytes} {off : Nat} {a : QeCertificationData} {b : Bytes} :
    decodeCertData (raw.drop off) = some (a, b) ↔ off + 6 + leNat (sub raw (off + 2) 4) ≤ raw.length ∧
      a.dataType = leNat (sub raw off 2) ∧ a.size = leNat (sub raw (off + 2) 4) ∧
      leNat (sub raw (off + 2) 4) ≤ 65000 ∧
      a.data = sub raw (off + 6) (leNat (sub raw (off + 2) 4)) ∧
      b = raw.drop (off + 6 + leNat (sub raw (off + 2) 4)) := by
  constructor
  · intro h
    simp only [decodeCertData, Option.bind_eq_bind, Option.bind_eq_some_iff, Prod.exists] at h
    obtain ⟨x1, b1, h1, x2, b2, h2, h⟩ := h
    obtain ⟨hl, rfl, rfl⟩ := (rdLE_drop (by omega)).mp h1
    obtain ⟨hl, rfl, rfl⟩ := (rdLE_drop (by omega)).mp h2
    split at h
    · simp at h
    · rename_i hs
      simp only [Option.bind_eq_some_iff, Prod.exists, Option.some.injEq, Prod.mk.injEq] at h
      obtain ⟨x3, b3, h3, rfl, rfl⟩ := h
      obtain ⟨hl, rfl, rfl⟩ := (rd_drop hl).mp h3
      exact ⟨hl, rfl, rfl, by omega, rfl, rfl⟩
  · rintro ⟨hl, e1, e2, hs, e3, rfl⟩
    have h1 := (rdLE_drop (raw := raw) (off := off) (n := 2) (by omega)).mpr ⟨by omega, e1, rfl⟩
    have h2 := (rdLE_drop (raw := raw) (off := off + 2) (n := 4) (by omega)).mpr ⟨by omega, e2, rfl⟩
    rw [← e2] at hl e3 hs ⊢
    have h3 := (rd_drop (raw := raw) (off := off + 2 + 4) (n := a.size) (by omega)).mpr ⟨by omega, e3, rfl⟩
    have : ¬ a.size > 65000 := by omega
    simp only [decodeCertData, Option.bind_eq_bind, h1, h2, h3, Option.bind_some, this, if_false]

theorem decodeDcapQuote_iff {raw : Bytes} {q : DcapQuote} {b : Bytes} :
    decodeDcapQuote raw = some (q, b) ↔ QuoteAt raw q ∧
      1014 + authSize raw + 6 + certSize raw ≤ raw.length ∧
      b = raw.drop (1014 + authSize raw + 6 + certSize raw) := by
  constructor
  · intro h
    simp only [decodeDcapQuote, Option.bind_eq_bind, Option.bind_eq_some_iff, Prod.exists,
      Option.some.injEq, Prod.mk.injEq] at h
    obtain ⟨x1, b1, h1, x2, b2, h2, x3, b3, h3, x4, b4, h4, x5, b5, h5, x6, b6, h6, x7, b7, h7, x8, b8, h8,
      x9, b9, h9, rfl, rfl⟩ := h
    obtain ⟨_, rfl, e1, e2, e3, e4, e5, e6, e7⟩ := decodeHeader_drop.mp h1
    obtain ⟨_, e8, rfl⟩ := decodeReportBody_drop.mp h2
    obtain ⟨_, e9, rfl⟩ := (rdLE_drop (by omega)).mp h3
    obtain ⟨_, e10, rfl⟩ := (rdArr_drop (by omega)).mp h4
    obtain ⟨_, e11, rfl⟩ := (rdArr_drop (by omega)).mp h5
    obtain ⟨_, e12, rfl⟩ := decodeReportBody_drop.mp h6
    obtain ⟨_, e13, rfl⟩ := (rdArr_drop (by omega)).mp h7
    obtain ⟨_, e14, e15, rfl⟩ := decodeAuthData_drop.mp h8
    obtain ⟨hl, e16, e17, e18, e19, rfl⟩ := decodeCertData_drop.mp h9
    simp only [Nat.reduceAdd] at *
    exact ⟨⟨e1, e2, e3, e4, e5, e6, e7, e8, e9, e10, e11, e12, e13, e14, e15, e16, e17, e18, e19⟩, hl, rfl⟩
  · rintro ⟨⟨e1, e2, e3, e4, e5, e6, e7, e8, e9, e10, e11, e12, e13, e14, e15, e16, e17, e18, e19⟩, hl, rfl⟩
    have h1 := (decodeHeader_drop (raw := raw) (h := q.header)).mpr
      ⟨by omega, rfl, e1, e2, e3, e4, e5, e6, e7⟩
    have h2 := (decodeReportBody_drop (raw := raw) (off := 48)).mpr ⟨by omega, e8, rfl⟩
    have h3 := (rdLE_drop (raw := raw) (off := 432) (n := 4) (by omega)).mpr ⟨by omega, e9, rfl⟩
    have h4 := (rdArr_drop (raw := raw) (off := 436) (n := 64) (by omega)).mpr ⟨by omega, e10, rfl⟩
    have h5 := (rdArr_drop (raw := raw) (off := 500) (n := 64) (by omega)).mpr ⟨by omega, e11, rfl⟩
    have h6 := (decodeReportBody_drop (raw := raw) (off := 564)).mpr ⟨by omega, e12, rfl⟩
    have h7 := (rdArr_drop (raw := raw) (off := 948) (n := 64) (by omega)).mpr ⟨by omega, e13, rfl⟩
    have h8 := (decodeAuthData_drop (raw := raw) (off := 1012)).mpr
      ⟨by unfold certSize authSize at *; omega, e14, e15, rfl⟩
    have h9 := (decodeCertData_drop (raw := raw) (off := 1012 + 2 + authSize raw)).mpr
      ⟨hl, e16, e17, e18, e19, rfl⟩
    simp only [List.drop_zero, Nat.reduceAdd] at *
    unfold certSize authSize at *
    simp only [decodeDcapQuote, Option.bind_eq_bind, h1, h2, h3, h4, h5, h6, h7, h8, h9, Option.bind_some]

end Verif
