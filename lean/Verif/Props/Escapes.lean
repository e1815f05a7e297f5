import Verif.Props.Texts
import Verif.Proofs.Escapes

/-!
# How the letters of signed texts are written, and null in place of absent members: C92, C149
-/

namespace Verif

open Demo Spelling

/-! ### C92 An optional member that is null counts as absent -/

/-- C92: a document with null for the advisories of a level, or for the category or type of a component, is read like the
one without that member; registering either has the same effect. -/
theorem C92_null_is_absent (c : Cfg) (s : Chain) (o : Origin) (d d' g g' ch : Bytes) (j : Json)
    (hj : c.ext.json d = some j) (hj' : c.ext.json d' = some j.withoutNulls)
    (hs : SignedByIntel c.ext s.now d g ch) (hs' : SignedByIntel c.ext s.now d' g' ch) :
    exec c s (.ext o (.registerTcbInfo d g ch)) = exec c s (.ext o (.registerTcbInfo d' g' ch)) ∧
    exec c s (.ext o (.registerQuotingEnclave d g ch)) = exec c s (.ext o (.registerQuotingEnclave d' g' ch)) :=
  registration_of_parse c s o d d' g g' ch (by
      simp only [Ext.parseTcbInfo, hj, hj', Option.bind_some]
      exact (tcbInfo_alike drops_nulls _ j).symm) (by
      simp only [Ext.parseIdentity, hj, hj', Option.bind_some]
      exact (identity_alike drops_nulls _ j).symm) hs hs'

/-- The text of `sampleDoc` with null for the type of the first component and for the advisories of the level. -/
def nullText : Bytes := sampleHead ++ Der.ascii "\"tcbEvaluationDataNumber\":16,\"tcbLevels\":[{\"tcb\":" ++
  Der.ascii "{\"sgxtcbcomponents\":[{\"svn\":4,\"type\":null},{\"svn\":4},{\"svn\":3},{\"svn\":3},{\"svn\":0},{\"svn\":0}," ++
  Der.ascii "{\"svn\":0},{\"svn\":0}," ++
  Der.ascii "{\"svn\":0},{\"svn\":0},{\"svn\":0},{\"svn\":0},{\"svn\":0},{\"svn\":0},{\"svn\":0},{\"svn\":0}],\"pcesvn\":13}," ++
  Der.ascii "\"tcbDate\":\"2018-01-04T00:00:00Z\",\"advisoryIDs\":null,\"tcbStatus\":\"OutOfDate\"}]}\n"

theorem withoutNulls_of (a b : Option Json) (h : (a.bind fun i => b.map fun j => Json.same i j.withoutNulls) = some true) :
    ∃ j, b = some j ∧ a = some j.withoutNulls := by
  cases a with
  | none => cases h
  | some i =>
    cases b with
    | none => cases h
    | some j =>
      simp only [Option.bind_some, Option.map_some, Option.some.injEq] at h
      exact ⟨j, rfl, by rw [Json.eq_of_same _ _ h]⟩

theorem nullText_sample : ∃ j, JsonText.parse nullText = some j ∧ JsonText.parse sampleText = some j.withoutNulls :=
  withoutNulls_of (JsonText.parse sampleText) (JsonText.parse nullText) (by decide +kernel)

theorem nullText_accepted :
    (exec textCfg inJanuary (.ext (.signed bob) (.registerTcbInfo nullText (bytes 64 1) pem))).isOk = true := by decide +kernel

/-- The hypotheses are met by the text with null and the one without; both are accepted. -/
example : (∃ j, textCfg.ext.json nullText = some j ∧ textCfg.ext.json sampleText = some j.withoutNulls) ∧
    SignedByIntel textCfg.ext inJanuary.now nullText (bytes 64 1) pem ∧
    SignedByIntel textCfg.ext inJanuary.now sampleText (bytes 64 1) pem ∧
    (exec textCfg inJanuary (.ext (.signed bob) (.registerTcbInfo nullText (bytes 64 1) pem))).isOk = true := by
  have hp : textCfg.ext.json = JsonText.parse := rfl
  rw [hp]
  exact ⟨nullText_sample, sample_signed _, sample_signed _, nullText_accepted⟩

/-! ### C149 Escape sequences -/

/-- C149: it does not matter which letters of a signed document are written with escape sequences, as long as the members in
hexadecimal digits are the same. -/
theorem C149_escapes (c : Cfg) (s : Chain) (o : Origin) (d d' g g' ch : Bytes) (l l' : List (String × Json)) (hr : ReadsJson c.ext)
    (hd : Spells d (.obj l)) (hd' : Spells d' (.obj l')) (h : unescaped l = unescaped l')
    (hs : SignedByIntel c.ext s.now d g ch) (hs' : SignedByIntel c.ext s.now d' g' ch) :
    exec c s (.ext o (.registerTcbInfo d g ch)) = exec c s (.ext o (.registerTcbInfo d' g' ch)) ∧
    exec c s (.ext o (.registerQuotingEnclave d g ch)) = exec c s (.ext o (.registerQuotingEnclave d' g' ch)) := by
  have hj := (hr _ _).mpr hd
  have hj' := (hr _ _).mpr hd'
  refine registration_of_parse c s o d d' g g' ch ?_ ?_ hs hs'
  · simp only [Ext.parseTcbInfo, hj, hj', Option.bind_some]
    rw [← tcbInfo_unescaped, h, tcbInfo_unescaped]
  · simp only [Ext.parseIdentity, hj, hj', Option.bind_some]
    rw [← identity_unescaped, h, identity_unescaped]

theorem req_hex_escaped {n : Nat} {s : String} : Json.req (hexField n) (some (.str s true)) = none := rfl

theorem member_of_mem {l : List (String × Json)} {n : String} {j : Json} {o : Option Json} (h : (n, j) ∈ l)
    (hm : Json.member l n = some o) : o = some j := by
  have hf : (n, j) ∈ l.filter fun m => m.1 == n := List.mem_filter.mpr ⟨h, by simp⟩
  unfold Json.member at hm
  generalize l.filter (fun m => m.1 == n) = q at hf hm
  match q, hf, hm with
  | [m], hf, hm =>
    simp only [List.mem_singleton] at hf
    subst hf
    cases hm
    rfl

theorem fields_mem {names : List String} {l : List (String × Json)} {r : List (Option Json)} {k : Nat} {n : String} {j : Json}
    (h : (Json.obj l).fields names = some r) (hn : names[k]? = some n) (hm : (n, j) ∈ l) : r[k]? = some (some j) := by
  have h' := (mapM_some_iff (Json.member l) names r).mp h
  have h1 := congrArg (·[k]?) h'
  simp only [List.getElem?_map, hn, Option.map_some] at h1
  cases ho : r[k]? with
  | none => rw [ho] at h1; cases h1
  | some o =>
    rw [ho] at h1
    simp only [Option.map_some, Option.some.injEq] at h1
    rw [member_of_mem hm h1]

/-- C149: a signed TCB info in which the family of processors is written with an escape sequence is refused. -/
theorem C149_escaped_family (c : Cfg) (s s' : Chain) (o : Origin) (d g ch : Bytes) (l : List (String × Json)) (t : String)
    (hr : ReadsJson c.ext) (hd : Spells d (.obj l)) (hm : ("fmspc", .str t true) ∈ l) :
    exec c s (.ext o (.registerTcbInfo d g ch)) ≠ .ok s' := by
  intro h
  simp only [exec, dispatch] at h
  obtain ⟨_, f, info, _, hv, _⟩ := Teerex.registerTcbInfo_ok.mp h
  obtain ⟨_, leaf, i, inter, der, p, _, _, _, _, _, hp, _⟩ := signedTcbInfo_iff.mp hv
  simp only [Ext.parseTcbInfo, (hr _ _).mpr hd, Option.bind_some, TcbInfo.ofJson] at hp
  cases hf : (Json.obj l).fields ["id", "version", "issueDate", "nextUpdate", "fmspc", "pceId", "tcbType",
      "tcbEvaluationDataNumber", "tcbLevels"] with
  | none => simp [hf] at hp
  | some r =>
    have hl := fields_length hf
    have he := fields_mem (k := 4) hf rfl hm
    match r, hl, he, hp with
    | [_, _, _, _, e, _, _, _, _], _, he, hp =>
      simp only [List.getElem?_cons_succ, List.getElem?_cons_zero, Option.some.injEq] at he
      subst he
      simp [hf, req_hex_escaped] at hp

/-- C149: a signed identity in which a member in hexadecimal digits is written with an escape sequence is refused. -/
theorem C149_escaped_identity (c : Cfg) (s s' : Chain) (o : Origin) (d g ch : Bytes) (l : List (String × Json)) (n t : String)
    (hr : ReadsJson c.ext) (hd : Spells d (.obj l))
    (hn : n ∈ ["miscselect", "miscselectMask", "attributes", "attributesMask", "mrsigner"]) (hm : (n, .str t true) ∈ l) :
    exec c s (.ext o (.registerQuotingEnclave d g ch)) ≠ .ok s' := by
  intro h
  simp only [exec, dispatch] at h
  obtain ⟨_, q, _, hv, _⟩ := Teerex.registerQuotingEnclave_ok.mp h
  obtain ⟨_, leaf, i, inter, der, p, _, _, _, _, _, hp, _⟩ := signedIdentity_iff.mp hv
  simp only [Ext.parseIdentity, (hr _ _).mpr hd, Option.bind_some, EnclaveIdentity.ofJson] at hp
  cases hf : (Json.obj l).fields ["id", "version", "issueDate", "nextUpdate", "tcbEvaluationDataNumber", "miscselect",
      "miscselectMask", "attributes", "attributesMask", "mrsigner", "isvprodid", "tcbLevels"] with
  | none => simp [hf] at hp
  | some r =>
    have hl := fields_length hf
    obtain ⟨k, hk, he⟩ : ∃ k, (k = 5 ∨ k = 6 ∨ k = 7 ∨ k = 8 ∨ k = 9) ∧ r[k]? = some (some (.str t true)) := by
      simp only [List.mem_cons, List.not_mem_nil, or_false] at hn
      rcases hn with rfl | rfl | rfl | rfl | rfl
      · exact ⟨5, by decide, fields_mem hf rfl hm⟩
      · exact ⟨6, by decide, fields_mem hf rfl hm⟩
      · exact ⟨7, by decide, fields_mem hf rfl hm⟩
      · exact ⟨8, by decide, fields_mem hf rfl hm⟩
      · exact ⟨9, by decide, fields_mem hf rfl hm⟩
    match r, hl, he, hp with
    | [_, _, _, _, _, e, f, g, h, i, _, _], _, he, hp =>
      rcases hk with rfl | rfl | rfl | rfl | rfl <;>
        (simp only [List.getElem?_cons_succ, List.getElem?_cons_zero, Option.some.injEq] at he
         subst he
         simp [hf, req_hex_escaped] at hp)

/-- The levels of `sampleDoc` as text. -/
def sampleTail : Bytes := Der.ascii "\"tcbEvaluationDataNumber\":16,\"tcbLevels\":[{\"tcb\":" ++
  Der.ascii "{\"sgxtcbcomponents\":[{\"svn\":4},{\"svn\":4},{\"svn\":3},{\"svn\":3},{\"svn\":0},{\"svn\":0},{\"svn\":0},{\"svn\":0}," ++
  Der.ascii "{\"svn\":0},{\"svn\":0},{\"svn\":0},{\"svn\":0},{\"svn\":0},{\"svn\":0},{\"svn\":0},{\"svn\":0}],\"pcesvn\":13}," ++
  Der.ascii "\"tcbDate\":\"2018-01-04T00:00:00Z\",\"tcbStatus\":\"OutOfDat\\u0065\"}]}\n"

/-- The text of `sampleDoc` with an escape sequence in the identifier and in the status of a level. -/
def escapedText : Bytes := Der.ascii " {\"id\":\"S\\u0047X\",\"version\": 3,\n\"issueDate\":\"2024-01-20T08:30:00Z\"," ++
  Der.ascii "\"nextUpdate\":\"2024-02-19T08:30:00Z\",\"fmspc\":\"00606A000000\",\"pceId\":\"0000\",\"tcbType\":0," ++ sampleTail

/-- The text of `sampleDoc` with an escape sequence in the family of processors. -/
def escapedFamily : Bytes := Der.ascii " {\"id\":\"SGX\",\"version\": 3,\n\"issueDate\":\"2024-01-20T08:30:00Z\"," ++
  Der.ascii "\"nextUpdate\":\"2024-02-19T08:30:00Z\",\"fmspc\":\"00606\\u0041000000\",\"pceId\":\"0000\",\"tcbType\":0," ++ sampleTail

/-- The members of the object that a text is. -/
def membersOf (b : Bytes) : List (String × Json) :=
  match JsonText.parse b with
  | some (.obj l) => l
  | _ => []

theorem spells_members {b : Bytes} (h : (match JsonText.parse b with | some (.obj _) => true | _ => false) = true) :
    Spells b (.obj (membersOf b)) := by
  rw [← JsonText.parse_iff]
  unfold membersOf
  split at h
  · rename_i l hl; rw [hl]
  · cases h

/-- The hypotheses are met by a text with escape sequences and the one without; both are accepted. -/
example : ReadsJson textCfg.ext ∧ Spells escapedText (.obj (membersOf escapedText)) ∧
    Spells sampleText (.obj (membersOf sampleText)) ∧ unescaped (membersOf escapedText) = unescaped (membersOf sampleText) ∧
    SignedByIntel textCfg.ext inJanuary.now escapedText (bytes 64 1) pem ∧
    SignedByIntel textCfg.ext inJanuary.now sampleText (bytes 64 1) pem ∧
    (exec textCfg inJanuary (.ext (.signed bob) (.registerTcbInfo escapedText (bytes 64 1) pem))).isOk = true :=
  ⟨textCfg_readsJson, spells_members (by decide +kernel), spells_members (by decide +kernel),
    Json.eq_of_sameMembers _ _ (by decide +kernel), sample_signed _, sample_signed _, by decide +kernel⟩

/-- The text with an escape sequence in the family of processors meets the hypotheses, and Intel signed it. -/
example : Spells escapedFamily (.obj (membersOf escapedFamily)) ∧ ("fmspc", .str "00606A000000" true) ∈ membersOf escapedFamily ∧
    SignedByIntel textCfg.ext inJanuary.now escapedFamily (bytes 64 1) pem :=
  ⟨spells_members (by decide +kernel), by
    have : ((membersOf escapedFamily)[4]?.map fun m => m.1 == "fmspc" && Json.same m.2 (.str "00606A000000" true)) = some true := by
      decide +kernel
    obtain ⟨⟨n, j⟩, hm, h⟩ := Option.map_eq_some_iff.mp this
    rw [Bool.and_eq_true, beq_iff_eq] at h
    have := List.mem_of_getElem? hm
    have h1 : n = "fmspc" := h.1
    rwa [h1, Json.eq_of_same j _ h.2] at this, sample_signed _⟩

/-- The hypotheses for identities are met. -/
example : Spells (Der.ascii "{\"mrsigner\":\"\\u0030\"}") (.obj [("mrsigner", .str "0" true)]) ∧
    ("mrsigner", .str "0" true) ∈ [("mrsigner", Json.str "0" true)] :=
  ⟨JsonText.spells_of_parse (by decide +kernel), by simp⟩

/-! ### C92 Repeated members -/

theorem fields_repeated {names : List String} {l : List (String × Json)} {n : String} (hn : n ∈ names)
    (h : 2 ≤ (named l n).length) : (Json.obj l).fields names = none := by
  cases hf : (Json.obj l).fields names with
  | none => rfl
  | some r =>
    have h' := (mapM_some_iff (Json.member l) names r).mp hf
    have hm : Json.member l n ∈ r.map some := by rw [← h']; exact List.mem_map_of_mem hn
    obtain ⟨o, _, ho⟩ := List.mem_map.mp hm
    have hl : 2 ≤ (l.filter fun m => m.1 == n).length := by
      rw [named, List.length_map] at h
      exact h
    unfold Json.member at ho
    generalize l.filter (fun m => m.1 == n) = q at hl ho
    match q, hl, ho with
    | _ :: _ :: _, _, ho => cases ho

theorem mapM_bad {α β : Type} {f : α → Option β} {l : List α} {a : α} (ha : a ∈ l) (h : f a = none) : l.mapM f = none := by
  cases hf : l.mapM f with
  | none => rfl
  | some r =>
    have h' := (mapM_some_iff f l r).mp hf
    have hm : f a ∈ r.map some := by rw [← h']; exact List.mem_map_of_mem ha
    rw [h] at hm
    simp at hm

/-- C92: a signed TCB info in which a member that the code reads is given twice is refused, whatever the two values are; the same
holds for a member of a level. So nobody can read another value from the text than the chain does. -/
theorem C92_repeated_tcb_info (c : Cfg) (s s' : Chain) (o : Origin) (d g ch : Bytes) (l : List (String × Json))
    (hj : c.ext.json d = some (.obj l))
    (h : (∃ n ∈ ["id", "version", "issueDate", "nextUpdate", "fmspc", "pceId", "tcbType", "tcbEvaluationDataNumber", "tcbLevels"],
        2 ≤ (named l n).length) ∨
      ∃ ls m, ("tcbLevels", .arr ls) ∈ l ∧ .obj m ∈ ls ∧ ∃ n ∈ ["tcb", "tcbDate", "tcbStatus", "advisoryIDs"], 2 ≤ (named m n).length) :
    exec c s (.ext o (.registerTcbInfo d g ch)) ≠ .ok s' := by
  intro he
  simp only [exec, dispatch] at he
  obtain ⟨_, f, info, _, hv, _⟩ := Teerex.registerTcbInfo_ok.mp he
  obtain ⟨_, leaf, i, inter, der, p, _, _, _, _, _, hp, _⟩ := signedTcbInfo_iff.mp hv
  simp only [Ext.parseTcbInfo, hj, Option.bind_some, TcbInfo.ofJson] at hp
  rcases h with ⟨n, hn, h⟩ | ⟨ls, m, hm, hml, n, hn, h⟩
  · simp [fields_repeated hn h] at hp
  · cases hf : (Json.obj l).fields ["id", "version", "issueDate", "nextUpdate", "fmspc", "pceId", "tcbType",
        "tcbEvaluationDataNumber", "tcbLevels"] with
    | none => simp [hf] at hp
    | some r =>
      have hl := fields_length hf
      have he := fields_mem (k := 8) hf rfl hm
      have hb : TcbLevelFull.ofJson c.ext.parseDate (.obj m) = none := by
        simp [TcbLevelFull.ofJson, fields_repeated hn h]
      have hv : Json.req (Json.vec (TcbLevelFull.ofJson c.ext.parseDate)) (some (.arr ls)) = none := mapM_bad hml hb
      match r, hl, he, hp with
      | [_, _, _, _, _, _, _, _, e], _, he, hp =>
        simp only [List.getElem?_cons_succ, List.getElem?_cons_zero, Option.some.injEq] at he
        subst he
        simp [hf, hv] at hp

/-- C92: the same for the identity of the quoting enclave. -/
theorem C92_repeated_identity (c : Cfg) (s s' : Chain) (o : Origin) (d g ch : Bytes) (l : List (String × Json))
    (hj : c.ext.json d = some (.obj l))
    (h : (∃ n ∈ ["id", "version", "issueDate", "nextUpdate", "tcbEvaluationDataNumber", "miscselect", "miscselectMask", "attributes",
        "attributesMask", "mrsigner", "isvprodid", "tcbLevels"], 2 ≤ (named l n).length) ∨
      ∃ ls m, ("tcbLevels", .arr ls) ∈ l ∧ .obj m ∈ ls ∧ ∃ n ∈ ["tcb", "tcbDate", "tcbStatus", "advisoryIDs"], 2 ≤ (named m n).length) :
    exec c s (.ext o (.registerQuotingEnclave d g ch)) ≠ .ok s' := by
  intro he
  simp only [exec, dispatch] at he
  obtain ⟨_, q, _, hv, _⟩ := Teerex.registerQuotingEnclave_ok.mp he
  obtain ⟨_, leaf, i, inter, der, p, _, _, _, _, _, hp, _⟩ := signedIdentity_iff.mp hv
  simp only [Ext.parseIdentity, hj, Option.bind_some, EnclaveIdentity.ofJson] at hp
  rcases h with ⟨n, hn, h⟩ | ⟨ls, m, hm, hml, n, hn, h⟩
  · simp [fields_repeated hn h] at hp
  · cases hf : (Json.obj l).fields ["id", "version", "issueDate", "nextUpdate", "tcbEvaluationDataNumber", "miscselect",
        "miscselectMask", "attributes", "attributesMask", "mrsigner", "isvprodid", "tcbLevels"] with
    | none => simp [hf] at hp
    | some r =>
      have hl := fields_length hf
      have he := fields_mem (k := 11) hf rfl hm
      have hb : QeTcbLevel.ofJson c.ext.parseDate (.obj m) = none := by
        simp [QeTcbLevel.ofJson, fields_repeated hn h]
      have hv : Json.req (Json.vec (QeTcbLevel.ofJson c.ext.parseDate)) (some (.arr ls)) = none := mapM_bad hml hb
      match r, hl, he, hp with
      | [_, _, _, _, _, _, _, _, _, _, _, e], _, he, hp =>
        simp only [List.getElem?_cons_succ, List.getElem?_cons_zero, Option.some.injEq] at he
        subst he
        simp [hf, hv] at hp

/-- The text of `sampleDoc`, followed by another date of next update. -/
def repeatedText : Bytes := sampleText.take (sampleText.length - 2) ++ Der.ascii ",\"nextUpdate\":\"2099-01-01T00:00:00Z\"}"

/-- The text of `sampleIdentity`, followed by another signer. -/
def repeatedIdentity : Bytes := identityText.take (identityText.length - 1) ++ Der.ascii ",\"mrsigner\":\"00\"}"

/-- The hypotheses are met by the texts with a second value, also signed by Intel; without it they are accepted (see
`Props/Texts`). -/
example : textCfg.ext.json repeatedText = some (.obj (membersOf repeatedText)) ∧ 2 ≤ (named (membersOf repeatedText) "nextUpdate").length ∧
    textCfg.ext.json repeatedIdentity = some (.obj (membersOf repeatedIdentity)) ∧
    2 ≤ (named (membersOf repeatedIdentity) "mrsigner").length ∧
    SignedByIntel textCfg.ext inJanuary.now repeatedText (bytes 64 1) pem ∧
    SignedByIntel textCfg.ext inJanuary.now repeatedIdentity (bytes 64 1) pem :=
  ⟨(textCfg_readsJson _ _).mpr (spells_members (by decide +kernel)), by decide +kernel,
    (textCfg_readsJson _ _).mpr (spells_members (by decide +kernel)), by decide +kernel, sample_signed _, sample_signed _⟩

end Verif
