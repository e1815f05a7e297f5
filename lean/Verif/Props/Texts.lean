import Verif.Props.Published
import Verif.Props.Teerex
import Verif.Proofs.BridgeInv
import Verif.Proofs.Calendar

/-!
# What signed texts mean: C149, C150
-/

namespace Verif

open Demo Spelling

/-! ### A document and a report, as texts -/

/-- A configuration with the described readers of texts; the rest accepts everything. -/
def textCfg : Cfg := { okCfg with
  ext := { okExt with json := JsonText.parse, parseDate := DateText.readDate, parseTime := DateText.readTime } }

theorem textCfg_readsDates : ReadsDates textCfg.ext := fun _ h => DateText.readDate_text h

theorem textCfg_readsTimes : ReadsTimes textCfg.ext := fun _ _ h hf _ => DateText.readTime_text h hf

theorem textCfg_readsJson : ReadsJson textCfg.ext := fun b j => JsonText.parse_iff b j

/-- A TCB info with one level. -/
def sampleDoc : TcbInfoDoc where
  id := "SGX"
  version := 3
  issueDate := "2024-01-20T08:30:00Z"
  nextUpdate := "2024-02-19T08:30:00Z"
  fmspc := Der.ascii "00606A000000"
  pceId := "0000"
  tcbType := 0
  evaluation := 16
  levels := [⟨[4, 4, 3, 3, 0, 0, 0, 0, 0, 0, 0, 0, 0, 0, 0, 0], 13, "2018-01-04T00:00:00Z", "OutOfDate"⟩]

/-- The members before the levels. -/
def sampleHead : Bytes := Der.ascii " {\"id\":\"SGX\",\"version\": 3,\n\"issueDate\":\"2024-01-20T08:30:00Z\"," ++
  Der.ascii "\"nextUpdate\":\"2024-02-19T08:30:00Z\",\"fmspc\":\"00606A000000\",\"pceId\":\"0000\",\"tcbType\":0,"

/-- A text of that document. -/
def sampleText : Bytes := sampleHead ++ Der.ascii "\"tcbEvaluationDataNumber\":16,\"tcbLevels\":[{\"tcb\":" ++
  Der.ascii "{\"sgxtcbcomponents\":[{\"svn\":4},{\"svn\":4},{\"svn\":3},{\"svn\":3},{\"svn\":0},{\"svn\":0},{\"svn\":0},{\"svn\":0}," ++
  Der.ascii "{\"svn\":0},{\"svn\":0},{\"svn\":0},{\"svn\":0},{\"svn\":0},{\"svn\":0},{\"svn\":0},{\"svn\":0}],\"pcesvn\":13}," ++
  Der.ascii "\"tcbDate\":\"2018-01-04T00:00:00Z\",\"tcbStatus\":\"OutOfDate\"}]}\n"

theorem sample_spells : Spells sampleText sampleDoc.json := JsonText.spells_of_parse (by decide +kernel)

theorem utf8_append (a b : List Char) : utf8 (a ++ b) = utf8 a ++ utf8 b := by simp [utf8]

/-- White space may be added around a text. -/
theorem spells_ws {b : Bytes} {j : Json} {v w : List Char} (hv : Ws v) (hw : Ws w) (h : Spells b j) :
    Spells (utf8 v ++ b ++ utf8 w) j := by
  obtain ⟨v', t, w', hv', ht, hw', rfl⟩ := h
  refine ⟨v ++ v', t, w' ++ w, ?_, ht, ?_, by simp [utf8_append]⟩
  · intro c hc
    rcases List.mem_append.mp hc with hc | hc
    · exact hv c hc
    · exact hv' c hc
  · intro c hc
    rcases List.mem_append.mp hc with hc | hc
    · exact hw' c hc
    · exact hw c hc

/-- The identity of a quoting enclave with two levels. -/
def sampleIdentity : IdentityDoc := { twoLevels with
  issueDate := "2024-01-20T08:30:00Z"
  nextUpdate := "2024-02-19T08:30:00Z"
  levels := [(8, "2023-08-09T00:00:00Z", "UpToDate"), (6, "2021-11-10T00:00:00Z", "OutOfDate")] }

/-- A text of that document. -/
def identityText : Bytes := Der.ascii "{\"id\":\"QE\",\"version\":2,\"issueDate\":\"2024-01-20T08:30:00Z\"," ++
  Der.ascii "\"nextUpdate\":\"2024-02-19T08:30:00Z\",\"tcbEvaluationDataNumber\":16,\"miscselect\":\"00000000\"," ++
  Der.ascii "\"miscselectMask\":\"FFFFFFFF\",\"attributes\":\"11000000000000000000000000000000\"," ++
  Der.ascii "\"attributesMask\":\"FBFFFFFFFFFFFFFF0000000000000000\"," ++
  Der.ascii "\"mrsigner\":\"8C4F5775D796503E96137F77C68A829A0056AC8DED70140B081B094490C57BFF\",\"isvprodid\":1," ++
  Der.ascii "\"tcbLevels\":[{\"tcb\":{\"isvsvn\":8},\"tcbDate\":\"2023-08-09T00:00:00Z\",\"tcbStatus\":\"UpToDate\"}," ++
  Der.ascii "{\"tcb\":{\"isvsvn\":6},\"tcbDate\":\"2021-11-10T00:00:00Z\",\"tcbStatus\":\"OutOfDate\"}]}"

theorem identity_spells : Spells identityText sampleIdentity.json := JsonText.spells_of_parse (by decide +kernel)

/-- The clock shows 2024-01-23 08:53:20. -/
def inJanuary : Chain := { Demo.start with now := 1706000000000 }

/-- A report as text. -/
def sampleReport : Bytes :=
  Der.ascii "{\"timestamp\":\"2024-01-23T08:00:00.125\",\"isvEnclaveQuoteStatus\":\"OK\",\"isvEnclaveQuoteBody\":\"AA==\"}"

/-- A certificate with this report in its Netscape comment. -/
def sampleProof : Bytes :=
  nsCmtOid ++ [4, UInt8.ofNat (sampleReport.length + 4)] ++ sampleReport ++ [0x7C, 83, 0x7C, 67]

/-- Alice registers with it. -/
def sampleOps : List Op := [.ext (.signed alice) (.registerSgxEnclave sampleProof none .ias)]

/-! ### C149 Layout of signed documents -/

/-- C149: no text has two meanings. -/
theorem C149_one_meaning (b : Bytes) (j j' : Json) (h : Spells b j) (h' : Spells b j') : j = j' := by
  rw [← JsonText.parse_iff] at h h'
  rw [h] at h'
  injection h'

example : Spells (Der.ascii "{ \"\\u0061\\/\" : null }") (.obj [("a/", .null)]) := JsonText.spells_of_parse (by decide +kernel)

/-- The described reader is one that the theorems below speak about. -/
theorem C149_reader (x : Ext) (h : x.json = JsonText.parse) : ReadsJson x := by
  intro b j; rw [h]; exact JsonText.parse_iff b j

example : ReadsJson { Demo.ext with json := JsonText.parse } := C149_reader _ rfl

theorem tcbInfo_says {c : Cfg} (hr : ReadsJson c.ext) (s : Chain) (o : Origin) {data : Bytes} (sig chain : Bytes) {d : Json}
    (hd : TextOf data d) :
    exec c s (.ext o (.registerTcbInfo data sig chain)) = exec (c.reading d) s (.ext o (.registerTcbInfo data sig chain)) := by
  obtain ⟨j, h1, h2⟩ := hd
  exact tcbInfo_describes c s o data sig chain ((hr _ _).mpr h1) h2

theorem identity_says {c : Cfg} (hr : ReadsJson c.ext) (s : Chain) (o : Origin) {data : Bytes} (sig chain : Bytes) {d : Json}
    (hd : TextOf data d) :
    exec c s (.ext o (.registerQuotingEnclave data sig chain)) =
      exec (c.reading d) s (.ext o (.registerQuotingEnclave data sig chain)) := by
  obtain ⟨j, h1, h2⟩ := hd
  exact identity_describes c s o data sig chain ((hr _ _).mpr h1) h2

/-- C149: whatever the layout of the text, and whatever other members it has, what is stored for a TCB info are exactly the
values in it. The hypotheses are met by the examples with `sampleDoc` below. -/
theorem C149_tcb_info (c : Cfg) (s s' : Chain) (o : Origin) (data sig chain : Bytes) (doc : TcbInfoDoc) (hr : ReadsJson c.ext)
    (ha : ∀ x ∈ doc.fmspc, x < 128) (hd : TextOf data doc.json)
    (h : exec c s (.ext o (.registerTcbInfo data sig chain)) = .ok s') :
    ∃ f info, s'.tx.tcb f = some info ∧ doc.StoredAs c.ext.parseDate f info := by
  obtain ⟨j, h1, h2⟩ := hd
  exact C94_published c s s' o data sig chain j doc ha ((hr _ _).mpr h1) h2 h

/-- C149: the same for the identity of the quoting enclave. The hypotheses are met by the example with `sampleIdentity`
below. -/
theorem C149_identity (c : Cfg) (s s' : Chain) (o : Origin) (data sig chain : Bytes) (doc : IdentityDoc) (hr : ReadsJson c.ext)
    (ha : doc.Ascii) (hd : TextOf data doc.json) (h : exec c s (.ext o (.registerQuotingEnclave data sig chain)) = .ok s') :
    doc.StoredAs c.ext.parseDate s'.tx.qe := by
  obtain ⟨j, h1, h2⟩ := hd
  exact C95_published c s s' o data sig chain j doc ha ((hr _ _).mpr h1) h2 h

/-- C149: texts that spell documents with the same contents, both signed, have the same effect. The hypotheses are met
by the example with `sampleDoc` below. -/
theorem C149_layout (c : Cfg) (s : Chain) (o : Origin) (d d' g g' ch : Bytes) (j j' : Json) (hr : ReadsJson c.ext)
    (hd : Spells d j) (hd' : Spells d' j') (h : SameContents collateralMembers j j') (hs : SignedByIntel c.ext s.now d g ch)
    (hs' : SignedByIntel c.ext s.now d' g' ch) :
    exec c s (.ext o (.registerTcbInfo d g ch)) = exec c s (.ext o (.registerTcbInfo d' g' ch)) ∧
    exec c s (.ext o (.registerQuotingEnclave d g ch)) = exec c s (.ext o (.registerQuotingEnclave d' g' ch)) :=
  C92_registration c s o d d' g g' ch j j' ((hr _ _).mpr hd) ((hr _ _).mpr hd') h hs hs'

/-- C149: texts of the same document, both signed, have the same effect, whatever advisories, categories, types and unknown
members they have. The hypotheses are met by the example with `fullText` below. -/
theorem C149_further_members (c : Cfg) (s : Chain) (o : Origin) (d d' g g' ch : Bytes) (x : Json) (hr : ReadsJson c.ext)
    (hd : TextOf d x) (hd' : TextOf d' x) (hs : SignedByIntel c.ext s.now d g ch) (hs' : SignedByIntel c.ext s.now d' g' ch) :
    exec c s (.ext o (.registerTcbInfo d g ch)) = exec c s (.ext o (.registerTcbInfo d' g' ch)) ∧
    exec c s (.ext o (.registerQuotingEnclave d g ch)) = exec c s (.ext o (.registerQuotingEnclave d' g' ch)) := by
  obtain ⟨j, h1, h2⟩ := hd
  obtain ⟨j', h1', h2'⟩ := hd'
  refine registration_of_parse c s o d d' g g' ch ?_ ?_ hs hs'
  · simp only [Ext.parseTcbInfo, (hr _ _).mpr h1, (hr _ _).mpr h1', Option.bind_some]
    rw [describes_tcbInfo _ h2, describes_tcbInfo _ h2']
  · simp only [Ext.parseIdentity, (hr _ _).mpr h1, (hr _ _).mpr h1', Option.bind_some]
    rw [describes_identity _ h2, describes_identity _ h2']

/-- C149: a text that is not JSON is refused, even if Intel signed it. -/
theorem C149_not_json (c : Cfg) (s : Chain) (o : Origin) (data sig chain : Bytes) (hr : ReadsJson c.ext)
    (hd : ∀ j, ¬ Spells data j) :
    (∀ s', exec c s (.ext o (.registerTcbInfo data sig chain)) ≠ .ok s') ∧
    (∀ s', exec c s (.ext o (.registerQuotingEnclave data sig chain)) ≠ .ok s') := by
  have hn : c.ext.json data = none := by
    cases hj : c.ext.json data with
    | none => rfl
    | some j => exact absurd ((hr _ _).mp hj) (hd j)
  constructor
  · intro s' h
    simp only [exec, dispatch] at h
    obtain ⟨_, f, info, _, hv, _⟩ := Teerex.registerTcbInfo_ok.mp h
    obtain ⟨_, leaf, i, inter, der, p, _, _, _, _, _, hp, _⟩ := signedTcbInfo_iff.mp hv
    simp [Ext.parseTcbInfo, hn] at hp
  · intro s' h
    simp only [exec, dispatch] at h
    obtain ⟨_, q, _, hv, _⟩ := Teerex.registerQuotingEnclave_ok.mp h
    obtain ⟨_, leaf, i, inter, der, p, _, _, _, _, _, hp, _⟩ := signedIdentity_iff.mp hv
    simp [Ext.parseIdentity, hn] at hp

/-- A comma too much, an unpaired surrogate, a leading zero, an unfinished text, a byte that is not UTF-8. -/
example : ∀ b ∈ [Der.ascii "[1,]", Der.ascii "\"\\ud834\"", Der.ascii "012", Der.ascii "{\"a\":1", [34, 0xff, 34]], ∀ j, ¬ Spells b j := by
  intro b hb j hj
  rw [← JsonText.parse_iff] at hj
  have h : ∀ b ∈ [Der.ascii "[1,]", Der.ascii "\"\\ud834\"", Der.ascii "012", Der.ascii "{\"a\":1", [34, 0xff, 34]],
    (JsonText.parse b).isNone = true := by decide +kernel
  have := h b hb
  rw [hj] at this
  cases this

/-- One name spelled in three ways. -/
example : ∀ b ∈ [Der.ascii "{\"a/\":null}", Der.ascii "{ \"\\u0061\\/\" : null }", Der.ascii "\n{\"\\u0061\\u002f\":\tnull\r}"],
    Spells b (.obj [("a/", .null)]) := by
  intro b hb
  refine JsonText.spells_of_parse ?_
  revert b
  decide +kernel

/-- The value of the last member of that name, if it is text. -/
def LastText (l : List (String × Json)) (name text : String) : Prop :=
  ∃ before after escaped, l = before ++ (name, .str text escaped) :: after ∧ ∀ m ∈ after, m.1 ≠ name

theorem textMember_last {j : Json} {n t : String} (h : j.textMember n = some t) : ∃ l, j = .obj l ∧ LastText l n t := by
  cases j with
  | obj l =>
    refine ⟨l, rfl, ?_⟩
    simp only [Json.textMember, Option.bind_eq_some_iff] at h
    obtain ⟨⟨n', v⟩, hm, hv⟩ := h
    have hv' : ∃ e, v = .str t e := by
      cases v with
      | str s e => exact ⟨e, by simp only [Json.string, Option.some.injEq] at hv; rw [hv]⟩
      | _ => simp [Json.string] at hv
    obtain ⟨e, rfl⟩ := hv'
    clear hv
    induction l with
    | nil => simp at hm
    | cons a l ih =>
      rw [List.filter_cons] at hm
      by_cases hl : l.filter (fun m => m.1 == n) = []
      · rw [hl] at hm
        split at hm
        · rename_i ha
          simp only [List.getLast?_singleton, Option.some.injEq] at hm
          subst hm
          refine ⟨[], l, e, ?_, ?_⟩
          · have : n' = n := by simpa using ha
            rw [this]; rfl
          · intro m hm hn
            have : m ∈ l.filter (fun m => m.1 == n) := List.mem_filter.mpr ⟨hm, by simpa using hn⟩
            rw [hl] at this; simp at this
        · simp at hm
      · have hm' : (l.filter (fun m => m.1 == n)).getLast? = some (n', .str t e) := by
          split at hm
          · rw [List.getLast?_cons, Option.some.injEq] at hm
            cases hq : (l.filter (fun m => m.1 == n)).getLast? with
            | none => rw [List.getLast?_eq_none_iff] at hq; exact absurd hq hl
            | some q => rw [hq] at hm; simpa using hm
          · exact hm
        obtain ⟨b, a', e', h1, h2⟩ := ih hm'
        exact ⟨a :: b, a', e', by rw [h1]; rfl, h2⟩
  | _ => simp [Json.textMember] at h

/-- C149: an enclave with an attestation report of Intel (IAS) has the time and status that the signed text tells. Of
members that are repeated in the text, the last one counts. The hypotheses are met by the last example below. -/
theorem C149_report (c : Cfg) (s0 : Chain) (ops : List Op) (h0 : NoEnclaves s0) (hr : ReadsJson c.ext) (a : AccountId)
    (e : SgxEnclave) (h : (run c s0 ops).tx.sovereign a = some e) (hm : e.method = .ias) :
    ∃ s proof report sig cert l time status secs,
      (s, .ext (.signed a) (.registerSgxEnclave proof e.url e.method)) ∈ accepted c s0 ops ∧
      NetscapeIn c.ext proof report sig cert ∧ c.ext.certVerifySig .rsaPkcs1Sha256 cert report sig = true ∧
      Spells report (.obj l) ∧ LastText l "timestamp" time ∧ LastText l "isvEnclaveQuoteStatus" status ∧
      c.ext.parseTime (time ++ "+0000") = some secs ∧ (e.timestamp : Int) = secs * 1000 ∧ e.status = iasStatus status ∧
      e.timestamp ≤ s.now ∧ s.now < e.timestamp + c.momentsPerDay := by
  obtain ⟨_, _, s, proof, hmem, hatt⟩ := C12_sovereign_own_key c s0 ops h0 a e h
  simp only [Attested, hm] at hatt
  obtain ⟨r, h1, h2, h3, h4, h5⟩ := hatt
  obtain ⟨report, sig, cert, js, ts, secs, st, body, quote, n1, _, n2, _, n3, n4, n5, n6, n7, n8, _⟩ := h1.signed
  simp only [Ext.jsonReport, Option.map_eq_some_iff] at n3
  obtain ⟨j, hj, rfl⟩ := n3
  obtain ⟨l, rfl, lt⟩ := textMember_last n4
  obtain ⟨l', hl', ls⟩ := textMember_last (j := .obj l) (n := "isvEnclaveQuoteStatus") n7
  cases hl'
  have et : e.timestamp = r.timestamp := h2.2.2.2.1
  refine ⟨s, proof, report, sig, cert, l, ts, st, secs, by rw [hm] at hmem ⊢; exact hmem, n1, n2, (hr _ _).mp hj, lt, ls, n5,
    by rw [et]; exact n6, by rw [h3, n8], by rw [et]; exact h4, by rw [et]; exact h5⟩

/-! ### C150 Dates of signed documents -/

/-- The same time on the next day of the calendar. -/
inductive NextDay : CivilTime → CivilTime → Prop
  | day (c : CivilTime) (h : c.day < CivilTime.monthLength c.year c.month) : NextDay c { c with day := c.day + 1 }
  | month (c : CivilTime) (h : c.day = CivilTime.monthLength c.year c.month) (hm : c.month < 12) :
      NextDay c { c with month := c.month + 1, day := 1 }
  | year (c : CivilTime) (h : c.day = 31) (hm : c.month = 12) : NextDay c { c with year := c.year + 1, month := 1, day := 1 }

/-- C150: the calendar used below. It starts at the beginning of 1970, every day has 86400 seconds, and times on a day
differ by the difference of their clocks. -/
theorem C150_calendar (a b : CivilTime) (ha : a.Valid) :
    (⟨1970, 1, 1, 0, 0, 0⟩ : CivilTime).seconds = 0 ∧ (NextDay a b → b.seconds = a.seconds + 86400) ∧
    (a.year = b.year → a.month = b.month → a.day = b.day →
      b.seconds - a.seconds = ((b.hour : Int) * 3600 + b.minute * 60 + b.second) - (a.hour * 3600 + a.minute * 60 + a.second)) := by
  obtain ⟨_, h1, h2, h3, h4, _⟩ := ha
  refine ⟨?_, ?_, ?_⟩
  · simp only [CivilTime.seconds, CivilTime.dayNumber]
    have : CivilTime.daysBeforeMonth 1970 1 = 0 := by decide
    rw [this]; omega
  · rintro (h | ⟨h, hm⟩ | ⟨h, hm⟩)
    · simp only [CivilTime.seconds, CivilTime.dayNumber]; omega
    · simp only [CivilTime.seconds, CivilTime.dayNumber, CivilTime.daysBeforeMonth]; omega
    · have e1 := CivilTime.daysBeforeMonth_year a.year
      have e2 : CivilTime.daysBeforeMonth (a.year + 1) 1 = 0 := by
        simp [CivilTime.daysBeforeMonth, CivilTime.monthLength]
      have e3 : CivilTime.monthLength a.year 12 = 31 := by simp [CivilTime.monthLength]
      have e4 : CivilTime.daysBeforeMonth a.year 13 = CivilTime.daysBeforeMonth a.year 12 + CivilTime.monthLength a.year 12 := rfl
      have e5 : CivilTime.daysBeforeYear (a.year + 1) = CivilTime.daysBeforeYear a.year + CivilTime.yearLength a.year := rfl
      simp only [CivilTime.seconds, CivilTime.dayNumber, hm, h, e2, e5]
      omega
  · intro e1 e2 e3
    simp only [CivilTime.seconds, CivilTime.dayNumber, e1, e2, e3]
    omega

example : (⟨2024, 2, 28, 12, 0, 0⟩ : CivilTime).Valid ∧ NextDay ⟨2024, 2, 28, 12, 0, 0⟩ ⟨2024, 2, 29, 12, 0, 0⟩ :=
  ⟨by decide, .day _ (by decide)⟩

/-- C150: earlier dates have smaller numbers, different dates different ones. -/
theorem C150_order (a b : CivilTime) (ha : a.Valid) (hb : b.Valid) :
    (a.seconds < b.seconds ↔ a.Before b) ∧ (a.seconds = b.seconds ↔ a = b) :=
  ⟨CivilTime.seconds_lt_iff ha hb, CivilTime.seconds_inj ha hb, fun h => h ▸ rfl⟩

example : NextDay ⟨2024, 2, 28, 12, 0, 0⟩ ⟨2024, 2, 29, 12, 0, 0⟩ ∧ NextDay ⟨2024, 2, 29, 12, 0, 0⟩ ⟨2024, 3, 1, 12, 0, 0⟩ ∧
    NextDay ⟨2023, 12, 31, 12, 0, 0⟩ ⟨2024, 1, 1, 12, 0, 0⟩ ∧ (⟨2024, 2, 29, 12, 0, 0⟩ : CivilTime).Valid ∧
    ¬ (⟨1900, 2, 29, 12, 0, 0⟩ : CivilTime).Valid ∧ (⟨2024, 1, 20, 8, 30, 0⟩ : CivilTime).seconds = 1705739400 :=
  ⟨.day _ (by decide), .month _ (by decide) (by decide), .year _ rfl rfl, by decide, by decide, by decide +kernel⟩

/-- The clock of the chain shows the second `t`. -/
def ClockShows (s : Chain) (t : CivilTime) : Prop := t.Valid ∧ t.seconds * 1000 ≤ s.now ∧ (s.now : Int) < t.seconds * 1000 + 1000

/-- C150: a TCB info is accepted only from its date of issue until its date of next update, by the calendar. Its dates
are stored in milliseconds. The hypotheses are met by the example with `sampleDoc` below. -/
theorem C150_tcb_info_window (c : Cfg) (s s' : Chain) (o : Origin) (data sig chain : Bytes) (doc : TcbInfoDoc) (a b t : CivilTime)
    (hr : ReadsJson c.ext) (hx : ReadsDates c.ext) (hd : TextOf data doc.json) (hf : ∀ x ∈ doc.fmspc, x < 128)
    (ha : a.Valid) (hb : b.Valid) (hi : doc.issueDate = a.text) (hn : doc.nextUpdate = b.text) (ht : ClockShows s t)
    (h : exec c s (.ext o (.registerTcbInfo data sig chain)) = .ok s') :
    ¬ t.Before a ∧ t.Before b ∧
      ∃ f info, s'.tx.tcb f = some info ∧ (info.issueDate : Int) = a.seconds * 1000 ∧ (info.nextUpdate : Int) = b.seconds * 1000 := by
  obtain ⟨t1, t2, t3⟩ := ht
  have hst := C149_tcb_info c s s' o data sig chain doc hr hf hd h
  rw [tcbInfo_says hr s o sig chain hd] at h
  have hj : (c.reading doc.json).ext.json data = some doc.json := rfl
  have hx' : ReadsDates (c.reading doc.json).ext := hx
  simp only [exec, dispatch] at h
  obtain ⟨_, f, info, _, hv, rfl⟩ := Teerex.registerTcbInfo_ok.mp h
  obtain ⟨_, leaf, i, inter, der, p, _, _, _, _, _, hp, _, _, w1, w2, _⟩ := signedTcbInfo_iff.mp hv
  simp only [Ext.parseTcbInfo, hj, Option.bind_some] at hp
  obtain ⟨_, _, _, d1, d2, _⟩ := (tcbInfo_doc _ _ _).mp hp
  rw [hi, hx' a ha, Option.some.injEq] at d1
  rw [hn, hx' b hb, Option.some.injEq] at d2
  refine ⟨?_, ?_, ?_⟩
  · rw [← CivilTime.seconds_lt_iff t1 ha]; omega
  · rw [← CivilTime.seconds_lt_iff t1 hb]; omega
  · obtain ⟨f, info, h1, _, h2, h3, _⟩ := hst
    rw [hi, hx a ha, Option.some.injEq] at h2
    rw [hn, hx b hb, Option.some.injEq] at h3
    exact ⟨f, info, h1, h2.symm, h3.symm⟩

/-- C150: the same for the identity of the quoting enclave. The hypotheses are met by the example with `sampleIdentity`
below. -/
theorem C150_identity_window (c : Cfg) (s s' : Chain) (o : Origin) (data sig chain : Bytes) (doc : IdentityDoc) (a b t : CivilTime)
    (hr : ReadsJson c.ext) (hx : ReadsDates c.ext) (hd : TextOf data doc.json) (hf : doc.Ascii)
    (ha : a.Valid) (hb : b.Valid) (hi : doc.issueDate = a.text) (hn : doc.nextUpdate = b.text) (ht : ClockShows s t)
    (h : exec c s (.ext o (.registerQuotingEnclave data sig chain)) = .ok s') :
    ¬ t.Before a ∧ t.Before b ∧ (s'.tx.qe.issueDate : Int) = a.seconds * 1000 ∧
      (s'.tx.qe.nextUpdate : Int) = b.seconds * 1000 := by
  obtain ⟨t1, t2, t3⟩ := ht
  obtain ⟨h2, h3, _⟩ := C149_identity c s s' o data sig chain doc hr hf hd h
  rw [identity_says hr s o sig chain hd] at h
  have hj : (c.reading doc.json).ext.json data = some doc.json := rfl
  have hx' : ReadsDates (c.reading doc.json).ext := hx
  simp only [exec, dispatch] at h
  obtain ⟨_, q, _, hv, rfl⟩ := Teerex.registerQuotingEnclave_ok.mp h
  obtain ⟨_, leaf, i, inter, der, p, _, _, _, _, _, hp, _, _, w1, w2, _⟩ := signedIdentity_iff.mp hv
  simp only [Ext.parseIdentity, hj, Option.bind_some] at hp
  obtain ⟨_, _, _, d1, d2, _⟩ := (identity_doc _ _ _).mp hp
  rw [hi, hx' a ha, Option.some.injEq] at d1
  rw [hn, hx' b hb, Option.some.injEq] at d2
  rw [hi, hx a ha, Option.some.injEq] at h2
  rw [hn, hx b hb, Option.some.injEq] at h3
  refine ⟨?_, ?_, h2.symm, h3.symm⟩
  · rw [← CivilTime.seconds_lt_iff t1 ha]; omega
  · rw [← CivilTime.seconds_lt_iff t1 hb]; omega

/-- The document is well formed, apart from its two dates; the dates of its levels have the published form. -/
structure TcbInfoDoc.WellFormed (i : TcbInfoDoc) : Prop where
  id : i.id = "SGX"
  version : i.version = 3
  fmspc : (∀ x ∈ i.fmspc, x < 128) ∧ ∃ f : Fmspc, lowerCase i.fmspc = hexOf f.val
  tcbType : 0 ≤ i.tcbType ∧ i.tcbType < 2 ^ 16
  evaluation : 0 ≤ i.evaluation ∧ i.evaluation < 2 ^ 16
  levels : ∀ l ∈ i.levels, l.svns.length = 16 ∧ (∀ n ∈ l.svns, 0 ≤ n ∧ n < 2 ^ 8) ∧ 0 ≤ l.pcesvn ∧ l.pcesvn < 2 ^ 16 ∧
    (∃ d : CivilTime, d.Valid ∧ l.date = d.text) ∧ l.status ∈ intelStatuses ∧ l.status ≠ "ConfigurationNeeded"

/-- C150: between these dates the text, in any layout and with any further members, is accepted from everybody, if
Intel signed it. (Documents with the status "ConfigurationNeeded" are excluded, see C93.) The hypotheses are met by the example with `sampleDoc` below.
-/
theorem C150_tcb_info_accepted (c : Cfg) (s : Chain) (o : AccountId) (data sig chain : Bytes) (doc : TcbInfoDoc) (a b t : CivilTime)
    (hr : ReadsJson c.ext) (hx : ReadsDates c.ext) (hd : TextOf data doc.json) (hw : doc.WellFormed)
    (ha : a.Valid) (hb : b.Valid) (hi : doc.issueDate = a.text) (hn : doc.nextUpdate = b.text) (ht : ClockShows s t)
    (h70 : 1970 ≤ a.year) (h1 : a.Before t) (h2 : t.Before b) (hs : SignedByIntel c.ext s.now data sig chain) :
    ∃ s', exec c s (.ext (.signed o) (.registerTcbInfo data sig chain)) = .ok s' := by
  obtain ⟨t1, t2, t3⟩ := ht
  have l1 := CivilTime.seconds_lt ha t1 h1
  have l2 := CivilTime.seconds_lt t1 hb h2
  have l0 : 0 ≤ a.seconds := by
    have h0 : (⟨1970, 1, 1, 0, 0, 0⟩ : CivilTime).seconds = 0 := (C150_calendar a a ha).1
    have hv : (⟨1970, 1, 1, 0, 0, 0⟩ : CivilTime).Valid := by decide
    by_cases hl : a.seconds < (⟨1970, 1, 1, 0, 0, 0⟩ : CivilTime).seconds
    · have := (CivilTime.seconds_lt_iff ha hv).mp hl
      obtain ⟨_, a1, _, a2, _⟩ := ha
      unfold CivilTime.Before at this
      simp only at this
      omega
    · omega
  have hbig : b.seconds < 10 ^ 12 := by
    have h9 : (⟨9999, 12, 31, 23, 59, 59⟩ : CivilTime).seconds < 10 ^ 12 := by decide +kernel
    have hv : (⟨9999, 12, 31, 23, 59, 59⟩ : CivilTime).Valid := by decide
    by_cases hl : (⟨9999, 12, 31, 23, 59, 59⟩ : CivilTime).seconds < b.seconds
    · have := (CivilTime.seconds_lt_iff hv hb).mp hl
      obtain ⟨b1, _, b2, _, b3, b4, b5, b6⟩ := hb
      have := DateText.monthLength_le b.year b.month
      unfold CivilTime.Before at *
      simp only at *
      omega
    · omega
  obtain ⟨j, hd1, hd2⟩ := hd
  refine C93_published_partial c s o data sig chain j doc (by omega) ((hr _ _).mpr hd1) hd2 hs ?_ fun l hl => (hw.levels l hl).2.2.2.2.2.2
  refine ⟨hw.id, hw.version, ⟨_, by rw [hi]; exact hx a ha, by omega, by omega⟩, ⟨_, by rw [hn]; exact hx b hb, by omega⟩, hw.fmspc,
    hw.tcbType, hw.evaluation, fun l hl => ?_⟩
  obtain ⟨q1, q2, q3, q4, ⟨d, hdv, q5⟩, q6, _⟩ := hw.levels l hl
  exact ⟨q1, q2, q3, q4, ⟨_, by rw [q5]; exact hx d hdv⟩, q6⟩

/-- C150: an enclave whose attestation report (IAS) tells the time `t` in the form used by Intel has that time, up to the
second, as its timestamp; it was registered at that time or within a day after. The hypotheses are met by the last
example below. -/
theorem C150_report_time (c : Cfg) (s0 : Chain) (ops : List Op) (h0 : NoEnclaves s0) (hr : ReadsJson c.ext) (hx : ReadsTimes c.ext)
    (hday : c.momentsPerDay = 24 * 60 * 60 * 1000) (a : AccountId)
    (e : SgxEnclave) (h : (run c s0 ops).tx.sovereign a = some e) (hm : e.method = .ias) :
    ∃ s proof report l time, (s, .ext (.signed a) (.registerSgxEnclave proof e.url e.method)) ∈ accepted c s0 ops ∧
      (∃ sig cert, NetscapeIn c.ext proof report sig cert ∧ c.ext.certVerifySig .rsaPkcs1Sha256 cert report sig = true) ∧
      Spells report (.obj l) ∧ LastText l "timestamp" time ∧
      ∀ (t n : CivilTime) (f : List Char), t.Valid → Fraction f → f.length ≤ 10 → time = t.reportText f → ClockShows s n →
        (e.timestamp : Int) = t.seconds * 1000 ∧ ¬ n.Before t ∧ (∀ t', NextDay t t' → t'.Valid → n.Before t') := by
  obtain ⟨s, proof, report, sig, cert, l, time, status, secs, h1, h2, h3, h4, h5, _, h7, h8, _, h10, h11⟩ :=
    C149_report c s0 ops h0 hr a e h hm
  refine ⟨s, proof, report, l, time, h1, ⟨sig, cert, h2, h3⟩, h4, h5, ?_⟩
  rintro t n f ht hf hl rfl ⟨n1, n2, n3⟩
  rw [hx t f ht hf hl, Option.some.injEq] at h7
  subst h7
  refine ⟨h8, ?_, fun t' hn hv => ?_⟩
  · rw [← CivilTime.seconds_lt_iff n1 ht]; omega
  · rw [← CivilTime.seconds_lt_iff n1 hv]
    have := (C150_calendar t t' ht).2.1 hn
    omega

theorem sample_wellFormed : sampleDoc.WellFormed where
  id := rfl
  version := rfl
  fmspc := ⟨by decide +kernel, ⟨[0, 0x60, 0x6a, 0, 0, 0], rfl⟩, by decide +kernel⟩
  tcbType := by decide
  evaluation := by decide
  levels := by
    intro l hl
    simp only [sampleDoc, List.mem_singleton] at hl
    subst hl
    exact ⟨rfl, by decide, by decide, by decide, ⟨⟨2018, 1, 4, 0, 0, 0⟩, by decide, by decide +kernel⟩, by decide +kernel,
      by decide +kernel⟩

theorem sample_signed (b : Bytes) : SignedByIntel textCfg.ext inJanuary.now b (bytes 64 1) pem :=
  ⟨iasQuote, iasQuote, [], _, by decide +kernel, rfl, rfl, rfl, rfl⟩

theorem january_clock : ClockShows inJanuary ⟨2024, 1, 23, 8, 53, 20⟩ := ⟨by decide, by decide +kernel, by decide +kernel⟩

/-- The hypotheses of `C149_tcb_info`, `C149_layout`, `C150_tcb_info_window` and `C150_tcb_info_accepted` are met by a text and
the same text with white space added. -/
example : Ws ['\n'] ∧ ReadsJson textCfg.ext ∧ ReadsDates textCfg.ext ∧ (∀ x ∈ sampleDoc.fmspc, x < 128) ∧
    sampleDoc.issueDate = (⟨2024, 1, 20, 8, 30, 0⟩ : CivilTime).text ∧ sampleDoc.nextUpdate = (⟨2024, 2, 19, 8, 30, 0⟩ : CivilTime).text ∧
    SameContents collateralMembers sampleDoc.json sampleDoc.json ∧
    (∃ s', exec textCfg inJanuary (.ext (.signed bob) (.registerTcbInfo sampleText (bytes 64 1) pem)) = .ok s') ∧
    (∃ s', exec textCfg inJanuary (.ext (.signed bob)
      (.registerTcbInfo (utf8 ['\n'] ++ sampleText ++ utf8 ['\n']) (bytes 64 1) pem)) = .ok s') := by
  have hw : Ws ['\n'] := by unfold Ws; decide
  have h : ∀ b, TextOf b sampleDoc.json → ∃ s', exec textCfg inJanuary (.ext (.signed bob) (.registerTcbInfo b (bytes 64 1) pem)) =
      .ok s' := fun b hb =>
    C150_tcb_info_accepted textCfg inJanuary bob b (bytes 64 1) pem sampleDoc ⟨2024, 1, 20, 8, 30, 0⟩ ⟨2024, 2, 19, 8, 30, 0⟩
      ⟨2024, 1, 23, 8, 53, 20⟩ textCfg_readsJson textCfg_readsDates hb sample_wellFormed (by decide) (by decide) (by decide +kernel)
      (by decide +kernel) january_clock (by decide) (by decide) (by decide) (sample_signed b)
  exact ⟨hw, textCfg_readsJson, textCfg_readsDates, by decide +kernel, by decide +kernel, by decide +kernel, .refl _, h _ (textOf_doc sample_spells),
    h _ (textOf_doc (spells_ws hw hw sample_spells))⟩

/-- A text of `sampleDoc` with advisories, a category, a type and a member that the code does not know. -/
def fullText : Bytes := Der.ascii "{\"tdxModule\":{\"mrsigner\":\"00\"}," ++ sampleHead.drop 2 ++
  Der.ascii "\"tcbEvaluationDataNumber\":16,\"tcbLevels\":[{\"tcb\":{\"sgxtcbcomponents\":[" ++
  Der.ascii "{\"svn\":4,\"category\":\"BIOS\",\"type\":\"Early Microcode Update\"},{\"svn\":4},{\"svn\":3},{\"svn\":3}," ++
  Der.ascii "{\"svn\":0},{\"svn\":0},{\"svn\":0},{\"svn\":0},{\"svn\":0},{\"svn\":0},{\"svn\":0},{\"svn\":0}," ++
  Der.ascii "{\"svn\":0},{\"svn\":0},{\"svn\":0},{\"svn\":0}],\"pcesvn\":13},\"tcbDate\":\"2018-01-04T00:00:00Z\"," ++
  Der.ascii "\"tcbStatus\":\"OutOfDate\",\"advisoryIDs\":[\"INTEL-SA-00106\",\"INTEL-SA-00115\"]}]}\n"

theorem textOf_of {b : Bytes} {d : Json} (h : moreMembers (JsonText.parse b) d = true) : TextOf b d := by
  obtain ⟨j, h1, h2⟩ := describes_of h
  exact ⟨j, (JsonText.parse_iff b j).mp h1, h2⟩

theorem full_says : TextOf fullText sampleDoc.json := textOf_of (by decide +kernel)

/-- The hypotheses are also met by that text. -/
example : TextOf fullText sampleDoc.json ∧ TextOf sampleText sampleDoc.json ∧
    SignedByIntel textCfg.ext inJanuary.now fullText (bytes 64 1) pem ∧
    SignedByIntel textCfg.ext inJanuary.now sampleText (bytes 64 1) pem ∧
    (exec textCfg inJanuary (.ext (.signed bob) (.registerTcbInfo fullText (bytes 64 1) pem))).isOk = true :=
  ⟨full_says, textOf_doc sample_spells, sample_signed _, sample_signed _, by decide +kernel⟩

/-- The hypotheses of `C149_identity` and `C150_identity_window` are met. -/
example : sampleIdentity.Ascii ∧ TextOf identityText sampleIdentity.json ∧ sampleIdentity.issueDate = (⟨2024, 1, 20, 8, 30, 0⟩ : CivilTime).text ∧
    sampleIdentity.nextUpdate = (⟨2024, 2, 19, 8, 30, 0⟩ : CivilTime).text ∧
    exec textCfg inJanuary (.ext (.signed bob) (.registerQuotingEnclave identityText (bytes 64 1) pem)) =
      .ok (step textCfg inJanuary (.ext (.signed bob) (.registerQuotingEnclave identityText (bytes 64 1) pem))) :=
  ⟨by unfold IdentityDoc.Ascii; decide +kernel, textOf_identity identity_spells, by decide +kernel, by decide +kernel,
    exec_ok_of_isOk (op := .ext (.signed bob) (.registerQuotingEnclave identityText (bytes 64 1) pem)) (by decide +kernel)⟩

/-- The hypotheses of `C149_report` and `C150_report_time` are met. -/
example : NoEnclaves inJanuary ∧ ReadsTimes textCfg.ext ∧ textCfg.momentsPerDay = 24 * 60 * 60 * 1000 ∧
    ((run textCfg inJanuary sampleOps).tx.sovereign alice).map (fun e => (e.timestamp, e.method)) = some (1705996800000, .ias) ∧
    (⟨2024, 1, 23, 8, 0, 0⟩ : CivilTime).seconds * 1000 = 1705996800000 ∧ Fraction ".125".toList ∧
    "2024-01-23T08:00:00.125" = (⟨2024, 1, 23, 8, 0, 0⟩ : CivilTime).reportText ".125".toList := by
  refine ⟨⟨fun _ => rfl, fun _ => rfl⟩, textCfg_readsTimes, rfl, by decide +kernel, by decide +kernel, .inr ⟨['1', '2', '5'], ?_, ?_⟩,
    by decide +kernel⟩
  · unfold Digits; decide +kernel
  · decide +kernel

end Verif
