import Verif.Proofs.PckCert
import Verif.Props.Armour
import Verif.Props.Refusal

/-!
# Platform data in certificates: C153
-/

namespace Verif

open Demo Der

/-! ### C153 The platform data that a certificate states -/

/-- The full claim: the platform data of a certificate with Intel's extension is what the extension says. It is false for the
code, see `C153_refuted`. -/
def C153_Full : Prop := ∀ (x : Ext) (cert : Bytes) (e : PckExtension), e.pcesvn < 65536 → IntelExtension x cert e.der →
  extractTcbInfo x cert = .ok (e.fmspc, ⟨e.cpusvn, e.pcesvn, .unknown⟩)

theorem entry_cut (k v : Bytes) (hk : k.length ≤ 100) : ∃ L : Bytes, L.length ≤ 4 ∧
    entry k v = 0x30 :: L ++ 0x06 :: UInt8.ofNat (9 + k.length) :: sgxArc ++ k ++ v :=
  ⟨_, length_lengthBytes _, entry_eq k v hk⟩

/-- The extension, cut where the values are found. -/
theorem der_cut (e : PckExtension) : ∃ L L1 L2 L3 L4 L5 R : Bytes,
    L.length ≤ 4 ∧ L1.length ≤ 4 ∧ L2.length ≤ 4 ∧ L3.length ≤ 4 ∧ L4.length ≤ 4 ∧ L5.length ≤ 4 ∧
    e.der = (0x30 :: L ++ entry [1] (octets e.ppid.val) ++ 0x30 :: L1 ++ 0x06 :: 0x0A :: sgxArc ++ [2] ++ 0x30 :: L2 ++
      componentEntries 1 e.components.val) ++
      (0x30 :: L3 ++ 0x06 :: 0x0B :: sgxArc ++ [2, 17] ++ uint e.pcesvn) ++
      (0x30 :: L4 ++ 0x06 :: 0x0B :: sgxArc ++ [2, 18] ++ 0x04 :: 0x10 :: e.cpusvn.val) ++
      entry [3] (octets e.pceid.val) ++
      (0x30 :: L5 ++ 0x06 :: 0x0A :: sgxArc ++ [4] ++ 0x04 :: 0x06 :: e.fmspc.val) ++ R := by
  have h1 : octets e.cpusvn.val = 0x04 :: 0x10 :: e.cpusvn.val := by simp [octets, tlv, lengthBytes, e.cpusvn.property]
  have h2 : octets e.fmspc.val = 0x04 :: 0x06 :: e.fmspc.val := by simp [octets, tlv, lengthBytes, e.fmspc.property]
  unfold PckExtension.der
  rw [h1, h2]
  obtain ⟨L3, l3, e3⟩ := entry_cut [2, 17] (uint e.pcesvn) (by simp)
  obtain ⟨L4, l4, e4⟩ := entry_cut [2, 18] (0x04 :: 0x10 :: e.cpusvn.val) (by simp)
  obtain ⟨L5, l5, e5⟩ := entry_cut [4] (0x04 :: 0x06 :: e.fmspc.val) (by simp)
  rw [e3, e4, e5]
  obtain ⟨L2, l2, e2⟩ := tlv_eq 0x30 (componentEntries 1 e.components.val ++
    (0x30 :: L3 ++ 0x06 :: UInt8.ofNat (9 + ([2, 17] : Bytes).length) :: sgxArc ++ [2, 17] ++ uint e.pcesvn) ++
    (0x30 :: L4 ++ 0x06 :: UInt8.ofNat (9 + ([2, 18] : Bytes).length) :: sgxArc ++ [2, 18] ++ 0x04 :: 0x10 :: e.cpusvn.val))
  rw [e2]
  obtain ⟨L1, l1, e1⟩ := entry_cut [2] (0x30 :: L2 ++ (componentEntries 1 e.components.val ++
    (0x30 :: L3 ++ 0x06 :: UInt8.ofNat (9 + ([2, 17] : Bytes).length) :: sgxArc ++ [2, 17] ++ uint e.pcesvn) ++
    (0x30 :: L4 ++ 0x06 :: UInt8.ofNat (9 + ([2, 18] : Bytes).length) :: sgxArc ++ [2, 18] ++ 0x04 :: 0x10 :: e.cpusvn.val))) (by simp)
  rw [e1]
  obtain ⟨L, l, e0⟩ := tlv_eq 0x30 (entry [1] (octets e.ppid.val) ++
    (0x30 :: L1 ++ 0x06 :: UInt8.ofNat (9 + ([2] : Bytes).length) :: sgxArc ++ [2] ++ (0x30 :: L2 ++ (componentEntries 1 e.components.val ++
    (0x30 :: L3 ++ 0x06 :: UInt8.ofNat (9 + ([2, 17] : Bytes).length) :: sgxArc ++ [2, 17] ++ uint e.pcesvn) ++
    (0x30 :: L4 ++ 0x06 :: UInt8.ofNat (9 + ([2, 18] : Bytes).length) :: sgxArc ++ [2, 18] ++ 0x04 :: 0x10 :: e.cpusvn.val)))) ++
    entry [3] (octets e.pceid.val) ++
    (0x30 :: L5 ++ 0x06 :: UInt8.ofNat (9 + ([4] : Bytes).length) :: sgxArc ++ [4] ++ 0x04 :: 0x06 :: e.fmspc.val) ++
    entry [5] (tlv 0x0A [e.sgxType]) ++ e.more)
  rw [e0]
  refine ⟨L, L1, L2, L3, L4, L5, entry [5] (tlv 0x0A [e.sgxType]) ++ e.more, l, l1, l2, l3, l4, l5, ?_⟩
  simp

theorem extract_of {x : Ext} {cert v : Bytes} (h : IntelExtension x cert v) : extractTcbInfo x cert =
    (getFmspc v).bind fun fmspc => (getCpusvn v).bind fun cpusvn => (getPcesvn v).bind fun pcesvn =>
      .ok (fmspc, { cpusvn := cpusvn, pcesvn := pcesvn, tcbStatus := .unknown }) := by
  unfold extractTcbInfo
  rw [getIntelExtension_ok.mpr h]
  rfl

/-- The FMSPC is the one of the extension, if the identifier does not occur in the provisioning id or the CPU SVN. -/
theorem fmspc_of_extension (e : PckExtension) (hn : e.pcesvn < 65536) (hp : Absent sgxArc e.ppid.val) (hc : Absent sgxArc e.cpusvn.val) :
    getFmspc e.der = .ok e.fmspc := by
  obtain ⟨L, L1, L2, L3, L4, L5, R, l, l1, l2, l3, l4, l5, he⟩ := der_cut e
  have hP := parts (more := [4]) (.inl rfl)
  have h1 := absent_start hP e (absent_longer hp) L L1 L2 l l1 l2
  have hs : ∀ M : Bytes, M.length ≤ 4 → Absent (sgxArc ++ [4]) M := fun M hM => absent_short (by simp [sgxArc]; omega)
  have hfind : ∀ {M : Bytes}, findSub (sgxArc ++ [4]) M = none → Absent (sgxArc ++ [4]) M := absent_of_find (by decide)
  have h2 := absent_sep (b := 0x30) (B := L3) hP.noSeq h1 (hs _ l3)
  have h3 := absent_sep (b := 0x06) (B := 0x0B :: sgxArc ++ [2, 17] ++ uint e.pcesvn) hP.noOid h2 (by
    apply hfind
    rcases uint_form hn with ⟨a, h, _⟩ | ⟨a, b, h, _⟩ | ⟨a, b, h, _⟩ <;> rw [h] <;> simp [findSub, sgxArc, List.isPrefixOf])
  have h4 := absent_sep (b := 0x30) (B := L4) hP.noSeq h3 (hs _ l4)
  have h5 := absent_sep (b := 0x06) (B := 0x0B :: sgxArc ++ [2, 18, 4]) hP.noOid h4 (hfind (by decide))
  have h6 := absent_sep (b := 0x10) (B := e.cpusvn.val) hP.noLen h5 (absent_longer hc)
  have h7 := absent_entry hP.toPattern [3] (octets e.pceid.val) (by simp) h6 (by
    apply hfind
    obtain ⟨a, b, hab⟩ : ∃ a b, e.pceid.val = [a, b] := by
      match e.pceid with
      | ⟨[a, b], _⟩ => exact ⟨a, b, rfl⟩
    rw [octets, tlv, hab]
    simp [findSub, sgxArc, List.isPrefixOf, lengthBytes])
  have h8 := absent_sep (b := 0x30) (B := L5) hP.noSeq h7 (hs _ l5)
  obtain ⟨pre, h9, h10⟩ := first_behind (l := e.der) (tag := 0x06) (len := 0x0A) (B := 0x04 :: 0x06 :: e.fmspc.val ++ R) hP.starts hP.noOid (by decide) h8
    (by rw [he]; simp)
  have hspec : specFmspc = sgxArc ++ [4] := by decide
  rw [C67_fmspc, hspec]
  exact ⟨pre, 0x04, 0x06, R, by simpa using h9, h10⟩

/-- The CPU SVN is the one of the extension, if the identifier does not occur in the provisioning id. -/
theorem cpusvn_of_extension (e : PckExtension) (hn : e.pcesvn < 65536) (hp : Absent sgxArc e.ppid.val) :
    getCpusvn e.der = .ok e.cpusvn := by
  obtain ⟨L, L1, L2, L3, L4, L5, R, l, l1, l2, l3, l4, l5, he⟩ := der_cut e
  have hP := parts (more := [2, 18]) (.inr (.inr rfl))
  have h1 := absent_start hP e (absent_longer hp) L L1 L2 l l1 l2
  have hs : ∀ M : Bytes, M.length ≤ 4 → Absent (sgxArc ++ [2, 18]) M := fun M hM => absent_short (by simp [sgxArc]; omega)
  have hfind : ∀ {M : Bytes}, findSub (sgxArc ++ [2, 18]) M = none → Absent (sgxArc ++ [2, 18]) M := absent_of_find (by decide)
  have h2 := absent_sep (b := 0x30) (B := L3) hP.noSeq h1 (hs _ l3)
  have h3 := absent_sep (b := 0x06) (B := 0x0B :: sgxArc ++ [2, 17] ++ uint e.pcesvn) hP.noOid h2 (by
    apply hfind
    rcases uint_form hn with ⟨a, h, _⟩ | ⟨a, b, h, _⟩ | ⟨a, b, h, _⟩ <;> rw [h] <;> simp [findSub, sgxArc, List.isPrefixOf])
  have h4 := absent_sep (b := 0x30) (B := L4) hP.noSeq h3 (hs _ l4)
  obtain ⟨pre, h9, h10⟩ := first_behind (l := e.der) (tag := 0x06) (len := 0x0B) (B := 0x04 :: 0x10 :: e.cpusvn.val ++ (entry [3] (octets e.pceid.val) ++
      (0x30 :: L5 ++ 0x06 :: 0x0A :: sgxArc ++ [4] ++ 0x04 :: 0x06 :: e.fmspc.val) ++ R)) hP.starts hP.noOid (by decide) h4 (by rw [he]; simp)
  have hspec : specCpusvn = sgxArc ++ [2, 18] := by decide
  rw [C67_cpusvn, hspec]
  exact ⟨pre, 0x04, 0x10, _, by simpa using h9, h10⟩

/-- Where the PCE SVN is found. -/
theorem pcesvn_place (e : PckExtension) (hp : Absent sgxArc e.ppid.val) :
    ∃ pre R, e.der = pre ++ (sgxArc ++ [2, 17]) ++ (uint e.pcesvn ++ R) ∧ FirstAt (sgxArc ++ [2, 17]) e.der pre.length := by
  obtain ⟨L, L1, L2, L3, L4, L5, R, l, l1, l2, l3, l4, l5, he⟩ := der_cut e
  have hP := parts (more := [2, 17]) (.inr (.inl rfl))
  have h1 := absent_start hP e (absent_longer hp) L L1 L2 l l1 l2
  have h2 := absent_sep (b := 0x30) (B := L3) hP.noSeq h1 (absent_short (by simp [sgxArc]; omega))
  obtain ⟨pre, h9, h10⟩ := first_behind (l := e.der) (tag := 0x06) (len := 0x0B) (B := uint e.pcesvn ++
      ((0x30 :: L4 ++ 0x06 :: 0x0B :: sgxArc ++ [2, 18] ++ 0x04 :: 0x10 :: e.cpusvn.val) ++ entry [3] (octets e.pceid.val) ++
      (0x30 :: L5 ++ 0x06 :: 0x0A :: sgxArc ++ [4] ++ 0x04 :: 0x06 :: e.fmspc.val) ++ R)) hP.starts hP.noOid (by decide) h2 (by rw [he]; simp)
  exact ⟨pre, _, h9, h10⟩

theorem pcesvn_of_extension (e : PckExtension) (hn : e.pcesvn < 32768) (hp : Absent sgxArc e.ppid.val) :
    getPcesvn e.der = .ok e.pcesvn := by
  obtain ⟨pre, R, h1, h2⟩ := pcesvn_place e hp
  have hspec : specPcesvn = sgxArc ++ [2, 17] := by decide
  rw [C67_pcesvn, hspec]
  rcases uint_form (n := e.pcesvn) (by omega) with ⟨a, h, ha⟩ | ⟨a, b, h, hab, _⟩ | ⟨a, b, h, hab⟩
  · exact ⟨pre, 2, [1], [a], R, by rw [h1, h]; simp, h2, by simp [beNat, leNat, ha], .inl ⟨rfl, .inl rfl⟩⟩
  · exact ⟨pre, 2, [2], [a, b], R, by rw [h1, h]; simp, h2, by simp [beNat, leNat, hab]; omega, .inr ⟨rfl, .inl rfl⟩⟩
  · omega

/-- C153, proved part: the platform data of a certificate is what Intel's extension says, whatever the other entries are.
Missing: PCE SVNs from 32768, see `C153_high_refused`, and extensions in which the bytes of Intel's object identifier occur by
chance in the provisioning id or the CPU SVN. The hypotheses are met by the examples below. -/
theorem C153_platform_partial (x : Ext) (cert : Bytes) (e : PckExtension) (hn : e.pcesvn < 32768) (hp : Absent sgxArc e.ppid.val)
    (hc : Absent sgxArc e.cpusvn.val) (h : IntelExtension x cert e.der) :
    extractTcbInfo x cert = .ok (e.fmspc, ⟨e.cpusvn, e.pcesvn, .unknown⟩) := by
  rw [extract_of h, fmspc_of_extension e (by omega) hp hc, cpusvn_of_extension e (by omega) hp, pcesvn_of_extension e hn hp]
  rfl

/-- C153: the number 32768 and greater ones need three bytes in DER. A platform with such a PCE SVN is refused. -/
theorem C153_high_refused (x : Ext) (cert : Bytes) (e : PckExtension) (hn : 32768 ≤ e.pcesvn) (hn' : e.pcesvn < 65536)
    (hp : Absent sgxArc e.ppid.val) (hc : Absent sgxArc e.cpusvn.val) (h : IntelExtension x cert e.der) :
    extractTcbInfo x cert = .error .pceSvnLengthMismatch := by
  have hpce : getPcesvn e.der = .error .pceSvnLengthMismatch := by
    obtain ⟨pre, R, h1, h2⟩ := pcesvn_place e hp
    have hf : findSub oidPcesvn e.der = some pre.length := (findSub_some (by decide)).mpr h2
    rcases uint_form (n := e.pcesvn) (by omega) with ⟨a, _, ha⟩ | ⟨a, b, _, _, hab⟩ | ⟨a, b, h, _⟩
    · have := a.toNat_lt; omega
    · omega
    · have h1' : e.der = pre ++ oidPcesvn ++ (2 :: 3 :: 0 :: a :: b :: R) := by rw [h1, h]; simp [oidPcesvn, oidIntelExt, sgxArc]
      have hl : lengthFromRawData e.der (pre.length + oidPcesvn.length + 1) = some (3, pre.length + oidPcesvn.length + 1) := by
        rw [h1', lengthFrom_after]; rfl
      simp only [getPcesvn, hf, okOr, Except.bind, bind, hl]
      rfl
  rw [extract_of h, fmspc_of_extension e (by omega) hp hc, cpusvn_of_extension e (by omega) hp, hpce]
  rfl

/-! A platform with PCE SVN 13, and the same one with PCE SVN 32768. -/

def demoPck : PckExtension where
  ppid := Arr.fill 16 0x2A
  components := ⟨[11, 11, 2, 2, 255, 1, 0, 5, 0, 0, 0, 0, 0, 0, 0, 0], rfl⟩
  pcesvn := 13
  cpusvn := ⟨[11, 11, 2, 2, 255, 1, 0, 5, 0, 0, 0, 0, 0, 0, 0, 0], rfl⟩
  pceid := Arr.zero 2
  fmspc := ⟨[0, 0x90, 0x6E, 0xD5, 0, 0], rfl⟩
  sgxType := 1
  more := entry [6] (octets (List.replicate 16 9))

/-- A reader of certificates whose leaf has this extension. -/
def pckExt (e : PckExtension) : Ext := { okExt with x509Extensions := fun _ => some [([0x55, 0x1D, 0x0F], [3, 2]), (oidIntelExt, e.der)] }

example : demoPck.pcesvn < 32768 ∧ Absent sgxArc demoPck.ppid.val ∧ Absent sgxArc demoPck.cpusvn.val ∧
    IntelExtension (pckExt demoPck) [] demoPck.der :=
  ⟨by decide, absent_of_find (by decide) (by decide), absent_of_find (by decide) (by decide), ⟨_, rfl, by decide +kernel⟩⟩

example : 32768 ≤ ({ demoPck with pcesvn := 32768 } : PckExtension).pcesvn ∧
    IntelExtension (pckExt { demoPck with pcesvn := 32768 }) [] ({ demoPck with pcesvn := 32768 } : PckExtension).der :=
  ⟨by decide, ⟨_, rfl, by decide +kernel⟩⟩

/-- C153: platform data are only read from certificates with exactly one extension of Intel's, and depend on nothing else in the
certificate. -/
theorem C153_one_extension (x y : Ext) (cert cert' : Bytes) (r : Fmspc × TcbVersionStatus) (h : extractTcbInfo x cert = .ok r) :
    ∃ v, IntelExtension x cert v ∧ (IntelExtension y cert' v → extractTcbInfo y cert' = .ok r) := by
  have h0 := h
  simp only [extractTcbInfo, getIntelExtension, bind_eq_ok, okOr_eq_ok] at h
  obtain ⟨v, ⟨l, h1, h2⟩, _⟩ := h
  split at h2
  · rename_i w hw
    cases h2
    have hl : IntelExtension x cert v := by
      refine ⟨l, h1, ?_⟩
      obtain ⟨⟨o, u⟩, h3, rfl⟩ := List.map_eq_singleton_iff.mp hw
      have h4 : (l.filter fun e => e.1 = extensionOid) = l.filter fun e => e.1 == oidIntelExt := by
        refine congrArg (List.filter · l) (funext fun e => ?_)
        rw [Bool.eq_iff_iff, decide_eq_true_iff, beq_iff_eq]; rfl
      rw [h4, h3]
      have : (o, u) ∈ l.filter fun e => e.1 == oidIntelExt := by rw [h3]; exact List.mem_singleton.mpr rfl
      have := (List.mem_filter.mp this).2
      simp only [beq_iff_eq] at this
      rw [this]; rfl
    exact ⟨v, hl, fun hv => by rw [extract_of hl] at h0; rw [extract_of hv]; exact h0⟩
  · cases h2

/-- A certificate without the extension or with two of them is refused. -/
example : extractTcbInfo { pckExt demoPck with x509Extensions := fun _ => some [] } [] = .error .intelExtensionAmbiguity ∧
    extractTcbInfo { pckExt demoPck with x509Extensions := fun _ => some [(oidIntelExt, demoPck.der), (oidIntelExt, demoPck.der)] } [] =
      .error .intelExtensionAmbiguity := ⟨rfl, rfl⟩

/-- C153: exactly which platforms are read as their certificate says, as long as Intel's object identifier does not occur by chance
in the provisioning id or the CPU SVN: those with a PCE SVN below 32768. The hypotheses are met by the examples above. -/
theorem C153_sharp (x : Ext) (cert : Bytes) (e : PckExtension) (hn : e.pcesvn < 65536) (hp : Absent sgxArc e.ppid.val)
    (hc : Absent sgxArc e.cpusvn.val) (h : IntelExtension x cert e.der) :
    extractTcbInfo x cert = .ok (e.fmspc, ⟨e.cpusvn, e.pcesvn, .unknown⟩) ↔ e.pcesvn < 32768 := by
  constructor
  · intro hok
    refine Nat.lt_of_not_le fun hh => ?_
    rw [C153_high_refused x cert e hh hn hp hc h] at hok
    cases hok
  · exact fun hh => C153_platform_partial x cert e hh hp hc h

/-- The platform with PCE SVN 32768 is refused, and so is not read as what its certificate says. -/
theorem C153_refuted : ¬ C153_Full := by
  intro h
  have h1 := h (pckExt { demoPck with pcesvn := 32768 }) [] { demoPck with pcesvn := 32768 } (by decide) ⟨_, rfl, by decide +kernel⟩
  have h2 := C153_high_refused (pckExt { demoPck with pcesvn := 32768 }) [] { demoPck with pcesvn := 32768 } (by decide) (by decide)
    (absent_of_find (by decide) (by decide)) (absent_of_find (by decide) (by decide)) ⟨_, rfl, by decide +kernel⟩
  rw [h1] at h2
  cases h2

/-- C153: if the object identifier of the FMSPC happens to occur in the provisioning id, bytes of that id are taken for the
FMSPC. -/
theorem C153_misread : ∃ (x : Ext) (cert : Bytes) (e : PckExtension) (f : Fmspc), e.pcesvn < 32768 ∧ IntelExtension x cert e.der ∧
    (extractTcbInfo x cert).toOption.map Prod.fst = some f ∧ f ≠ e.fmspc := by
  let e : PckExtension := { demoPck with ppid := ⟨sgxArc ++ [4, 4, 6, 1, 2, 3, 4], rfl⟩ }
  exact ⟨pckExt e, [], e, ⟨[1, 2, 3, 4, 0x30, 0x82], rfl⟩, by decide, ⟨_, rfl, by decide +kernel⟩, by decide +kernel, by decide⟩

end Verif
