import Verif.Props.Encoding
import Verif.Proofs.Escapes
import Verif.Proofs.JsonText

/-!
# Signed documents with all the members that Intel publishes: C93, C94, C95

The documents of `Verif.Spec.Collateral` have the members that the code reads and uses. Those of Intel have more: advisories,
categories and types of components, and members that the code does not know. The theorems of `Verif.Props.Encoding` hold for
them as well.
-/

namespace Verif

open Demo

theorem tcbInfo_describes (c : Cfg) (s : Chain) (o : Origin) (data sig chain : Bytes) {j d : Json} (hj : c.ext.json data = some j)
    (hd : Describes j d) :
    exec c s (.ext o (.registerTcbInfo data sig chain)) = exec (c.reading d) s (.ext o (.registerTcbInfo data sig chain)) :=
  tcbInfo_reading c s o data sig chain d (by
    simp only [Ext.parseTcbInfo, hj, Option.bind_some]
    exact describes_tcbInfo _ hd)

theorem identity_describes (c : Cfg) (s : Chain) (o : Origin) (data sig chain : Bytes) {j d : Json} (hj : c.ext.json data = some j)
    (hd : Describes j d) :
    exec c s (.ext o (.registerQuotingEnclave data sig chain)) =
      exec (c.reading d) s (.ext o (.registerQuotingEnclave data sig chain)) :=
  identity_reading c s o data sig chain d (by
    simp only [Ext.parseIdentity, hj, Option.bind_some]
    exact describes_identity _ hd)

/-- The text is read as an object whose first member is not one that the code knows, and whose others are those of `d`, and
optional ones. -/
def moreMembers (p : Option Json) (d : Json) : Bool :=
  match p with
  | some (.obj (m :: l)) => !collateralMembers.contains m.1 && (l.any fun x => collateralMembers.contains x.1) &&
      Json.same (Json.obj l).withoutOptional d
  | _ => false

theorem describes_of {p : Option Json} {d : Json} (h : moreMembers p d = true) : ∃ j, p = some j ∧ Describes j d := by
  unfold moreMembers at h
  split at h
  · rename_i m l
    simp only [Bool.and_eq_true, Bool.not_eq_true', List.any_eq_true] at h
    obtain ⟨⟨h1, x, hx, h2⟩, h3⟩ := h
    have hm : m.1 ∉ collateralMembers := by simpa using h1
    have hn : ∀ n ∈ collateralMembers, named (m :: l) n = named l n := by
      intro n hn
      have : ¬ m.1 = n := by
        rintro rfl
        exact hm hn
      simp [named, this]
    refine ⟨_, rfl, .obj l, .obj _ _ ⟨x.1, by simpa using h2, ?_⟩ (fun n h => by rw [hn n h]) (fun n h k a b ha hb => ?_),
      Json.eq_of_same _ _ h3⟩
    · rw [hn _ (by simpa using h2)]
      intro h0
      have : x.2 ∈ named l x.1 := by
        simp only [named, List.mem_map, List.mem_filter]
        exact ⟨x, ⟨hx, by simp⟩, rfl⟩
      rw [h0] at this
      cases this
    · rw [hn n h, hb] at ha
      cases ha
      exact .refl _
  · cases h

/-- A level as published: with a category and a type of the first component, and advisories. -/
def publishedLevel : Json := .obj [
  ("tcb", .obj [("sgxtcbcomponents", .arr (.obj [("svn", .int 4), ("category", .str "BIOS" false), ("type", .str "Early Microcode Update" false)] ::
      List.replicate 15 (.obj [("svn", .int 4)]))), ("pcesvn", .int 13)]),
  ("tcbDate", .str "0" false), ("tcbStatus", .str "OutOfDate" false),
  ("advisoryIDs", .arr [.str "INTEL-SA-00106" false, .str "INTEL-SA-00115" false])]

/-- A document as published, with a member that the code does not know. -/
def publishedInfo : Json := .obj [("tdxModule", .obj [("mrsigner", .str "00" false)]), ("id", .str "SGX" false), ("version", .int 3),
  ("issueDate", .str "3" false), ("nextUpdate", .str "6000" false), ("fmspc", .str "00606a000000" false),
  ("pceId", .str "0000" false), ("tcbType", .int 0), ("tcbEvaluationDataNumber", .int 16), ("tcbLevels", .arr [publishedLevel])]

/-- Configuration whose JSON parser yields that document. -/
def publishedCfg : Cfg := { okCfg with ext := { okExt with json := fun _ => some publishedInfo } }

/-- C94: what is stored for a TCB info are the values in it, also if it has more members than those the code uses. -/
theorem C94_published (c : Cfg) (s s' : Chain) (o : Origin) (data sig chain : Bytes) (j : Json) (doc : TcbInfoDoc)
    (ha : ∀ x ∈ doc.fmspc, x < 128) (hj : c.ext.json data = some j) (hd : Describes j doc.json)
    (h : exec c s (.ext o (.registerTcbInfo data sig chain)) = .ok s') :
    ∃ f info, s'.tx.tcb f = some info ∧ doc.StoredAs c.ext.parseDate f info := by
  rw [tcbInfo_describes c s o data sig chain hj hd] at h
  exact C94_stored_as_published (c.reading doc.json) s s' o data sig chain doc ha rfl h

/-- The hypotheses are met by a document with advisories, a category, a type and a member that the code does not know. -/
example : (∀ x ∈ (oneLevel "OutOfDate").fmspc, x < 128) ∧
    (∃ j, publishedCfg.ext.json [1] = some j ∧ Describes j (oneLevel "OutOfDate").json) ∧
    (exec publishedCfg Demo.start (.ext (.signed alice) (.registerTcbInfo [1] (bytes 64 1) pem))).isOk = true :=
  ⟨by decide +kernel, describes_of (by decide +kernel), by decide +kernel⟩

/-- C93, proved part: a valid TCB info signed by Intel is accepted from everybody, also if it has more members than those the
code uses. Missing: documents with a level of status "ConfigurationNeeded" (`C93_refuted`). -/
theorem C93_published_partial (c : Cfg) (s : Chain) (a : AccountId) (data sig chain : Bytes) (j : Json) (doc : TcbInfoDoc)
    (hnow : s.now < 2 ^ 63) (hj : c.ext.json data = some j) (hd : Describes j doc.json)
    (hs : SignedByIntel c.ext s.now data sig chain) (hv : doc.Valid c.ext.parseDate s.now)
    (hst : ∀ l ∈ doc.levels, l.status ≠ "ConfigurationNeeded") :
    ∃ s', exec c s (.ext (.signed a) (.registerTcbInfo data sig chain)) = .ok s' := by
  rw [tcbInfo_describes c s (.signed a) data sig chain hj hd]
  exact C93_accepted_partial (c.reading doc.json) s a data sig chain doc hnow rfl hs hv hst

/-- The hypotheses are met. -/
example : (∃ j, publishedCfg.ext.json [1] = some j ∧ Describes j (oneLevel "OutOfDate").json) ∧
    SignedByIntel publishedCfg.ext Demo.start.now [1] (bytes 64 1) pem ∧
    (oneLevel "OutOfDate").Valid publishedCfg.ext.parseDate Demo.start.now ∧
    (∀ l ∈ (oneLevel "OutOfDate").levels, l.status ≠ "ConfigurationNeeded") :=
  ⟨describes_of (by decide +kernel), ⟨iasQuote, iasQuote, [], _, by decide +kernel, rfl, rfl, rfl, rfl⟩,
    oneLevel_valid _ (by decide +kernel), by decide +kernel⟩

/-- An identity as published, with advisories and a member that the code does not know. -/
def publishedIdentity : Json := .obj [("$schema", .str "2" false), ("id", .str "QE" false), ("version", .int 2),
  ("issueDate", .str "3" false), ("nextUpdate", .str "6000" false), ("tcbEvaluationDataNumber", .int 16),
  ("miscselect", .str "00000000" false), ("miscselectMask", .str "FFFFFFFF" false),
  ("attributes", .str "11000000000000000000000000000000" false),
  ("attributesMask", .str "FBFFFFFFFFFFFFFF0000000000000000" false),
  ("mrsigner", .str "8C4F5775D796503E96137F77C68A829A0056AC8DED70140B081B094490C57BFF" false), ("isvprodid", .int 1),
  ("tcbLevels", .arr [
    .obj [("tcb", .obj [("isvsvn", .int 8)]), ("tcbDate", .str "0" false), ("tcbStatus", .str "UpToDate" false)],
    .obj [("tcb", .obj [("isvsvn", .int 6)]), ("tcbDate", .str "0" false), ("tcbStatus", .str "OutOfDate" false),
      ("advisoryIDs", .arr [.str "INTEL-SA-00615" false])]])]

/-- Configuration whose JSON parser yields that identity. -/
def publishedIdCfg : Cfg := { okCfg with ext := { okExt with json := fun _ => some publishedIdentity } }

/-- C95: what is stored for the quoting enclave are the values in its identity, also if that has more members than those the
code uses. -/
theorem C95_published (c : Cfg) (s s' : Chain) (o : Origin) (data sig chain : Bytes) (j : Json) (doc : IdentityDoc)
    (ha : doc.Ascii) (hj : c.ext.json data = some j) (hd : Describes j doc.json)
    (h : exec c s (.ext o (.registerQuotingEnclave data sig chain)) = .ok s') :
    doc.StoredAs c.ext.parseDate s'.tx.qe := by
  rw [identity_describes c s o data sig chain hj hd] at h
  exact C95_stored_as_published (c.reading doc.json) s s' o data sig chain doc ha rfl h

/-- The hypotheses are met. -/
example : twoLevels.Ascii ∧ (∃ j, publishedIdCfg.ext.json [1] = some j ∧ Describes j twoLevels.json) ∧
    (exec publishedIdCfg Demo.start (.ext (.signed alice) (.registerQuotingEnclave [1] (bytes 64 1) pem))).isOk = true :=
  ⟨by unfold IdentityDoc.Ascii; decide +kernel, describes_of (by decide +kernel), by decide +kernel⟩

/-- C95: a valid identity signed by Intel is accepted from everybody, also if it has more members than those the code uses. -/
theorem C95_published_accepted (c : Cfg) (s : Chain) (a : AccountId) (data sig chain : Bytes) (j : Json) (doc : IdentityDoc)
    (hnow : s.now < 2 ^ 63) (hj : c.ext.json data = some j) (hd : Describes j doc.json)
    (hs : SignedByIntel c.ext s.now data sig chain) (hv : doc.Valid c.ext.parseDate s.now) :
    ∃ s', exec c s (.ext (.signed a) (.registerQuotingEnclave data sig chain)) = .ok s' := by
  rw [identity_describes c s (.signed a) data sig chain hj hd]
  exact C95_accepted (c.reading doc.json) s a data sig chain doc hnow rfl hs hv

/-- The hypotheses are met. -/
example : (∃ j, publishedIdCfg.ext.json [1] = some j ∧ Describes j twoLevels.json) ∧
    SignedByIntel publishedIdCfg.ext Demo.start.now [1] (bytes 64 1) pem ∧ twoLevels.Valid publishedIdCfg.ext.parseDate Demo.start.now :=
  ⟨describes_of (by decide +kernel), ⟨iasQuote, iasQuote, [], _, by decide +kernel, rfl, rfl, rfl, rfl⟩, twoLevels_valid⟩

end Verif
