import Verif.Props.Sharp
import Verif.Props.Hinder
import Verif.Props.LastCollateral

/-!
# The versions of quoting enclaves: C162
-/

namespace Verif

open Demo

/-! ### C162 Quotes of outdated quoting enclaves are refused -/

/-- The security version of the quoting enclave that made a quote. -/
def qeVersion (quote : Bytes) : Nat := leNat (sub quote (564 + 258) 2)

/-- The level of a published identity that a security version reaches: the first listed one that is not above it. -/
def Reaches (i : EnclaveIdentity) (v : Nat) (l : QeTcbLevel) : Prop :=
  ∃ before after, i.tcbLevels = before ++ l :: after ∧ l.isvsvn ≤ v ∧ ∀ m ∈ before, v < m.isvsvn

/-- The full claim: if a quote is accepted after an identity was registered, the level that its quoting enclave reaches in this
identity is up to date, and it is not older than version 6. It is false for the code (see `C162_refuted`). -/
def C162_Full : Prop :=
  ∀ (c : Cfg) (s s1 s2 : Chain) (o b : Origin) (data sig chain quote : Bytes) (url : Option Bytes) (p : Bool) (i : EnclaveIdentity)
    (l : QeTcbLevel), exec c s (.ext o (.registerQuotingEnclave data sig chain)) = .ok s1 → c.ext.parseIdentity data = some i →
    exec c s1 (.ext b (.registerSgxEnclave quote url (.dcap p))) = .ok s2 → Reaches i (qeVersion quote) l →
    l.tcbStatus = .upToDate ∧ 6 ≤ qeVersion quote

/-- A version that is listed, or above a listed one, reaches a level. -/
theorem reaches_of_le {i : EnclaveIdentity} {v : Nat} (h : ∃ l ∈ i.tcbLevels, l.isvsvn ≤ v) : ∃ l, Reaches i v l := by
  unfold Reaches
  generalize i.tcbLevels = ls at h
  induction ls with
  | nil => obtain ⟨_, h, _⟩ := h; cases h
  | cons m ls ih =>
    by_cases hm : m.isvsvn ≤ v
    · exact ⟨m, [], ls, rfl, hm, by simp⟩
    · obtain ⟨l, hl, hv⟩ := h
      rcases List.mem_cons.mp hl with rfl | hl
      · exact absurd hv hm
      · obtain ⟨l', before, after, rfl, h1, h2⟩ := ih ⟨l, hl, hv⟩
        refine ⟨l', m :: before, after, rfl, h1, fun x hx => ?_⟩
        rcases List.mem_cons.mp hx with rfl | hx
        · omega
        · exact h2 x hx

/-- An accepted quote is from a quoting enclave that matches the stored identity. -/
theorem dcap_matches {c : Cfg} {s s' : Chain} {o : Origin} {quote : Bytes} {url : Option Bytes} {p : Bool}
    (h : exec c s (.ext o (.registerSgxEnclave quote url (.dcap p))) = .ok s') : QeMatches quote 564 s.tx.qe := by
  obtain ⟨a, e, _, _, _, hm, _, hatt, _⟩ := register_iff.mp h
  simp only [Attested, hm] at hatt
  obtain ⟨f, t, r, info, hauth, _⟩ := hatt
  exact hauth.qeMatches

/-- C162, proved part: in every history the quoting enclave of an accepted quote reaches some level of the identity that was
registered last, and Intel signed that identity. Missing: the level may be out of date or revoked, and below 6. -/
theorem C162_listed_partial (c : Cfg) (s0 s' : Chain) (ops : List Op) (o : Origin) (quote : Bytes) (url : Option Bytes) (p : Bool)
    (h0 : (∀ f, s0.tx.tcb f = none) ∧ s0.tx.qe.tcb = [])
    (h : exec c (run c s0 ops) (.ext o (.registerSgxEnclave quote url (.dcap p))) = .ok s') :
    ∃ s b data sig chain i l,
      LastOf RegistersIdentity (accepted c s0 ops) s (.ext (.signed b) (.registerQuotingEnclave data sig chain)) ∧
      SignedByIntel c.ext s.now data sig chain ∧ c.ext.parseIdentity data = some i ∧ Reaches i (qeVersion quote) l := by
  obtain ⟨s, b, d, g, ch, q, hl, hs, f, t, r, hq, _⟩ := C172_judged c s0 s' ops o quote url p h0 h
  obtain ⟨v, hv, hle⟩ := hq.qeMatches.svn
  obtain ⟨leaf, x, inter, der, i, k1, k2, k3, k4, k5, k6, _, _, _, _, _, _, _, _, _, _, _, _, ht⟩ := hs
  rw [ht] at hv
  obtain ⟨l, hl', rfl⟩ := List.mem_map.mp hv
  obtain ⟨l', hr⟩ := reaches_of_le (i := i) (v := qeVersion quote) ⟨l, hl', hle⟩
  exact ⟨s, b, d, g, ch, i, l', hl, ⟨leaf, x, inter, der, k1, k2, k3, k4, k5⟩, k6, hr⟩

/-- C162, proved part: if the identity that was registered last lists only levels that are up to date and not below 6, no quote of
an outdated quoting enclave is accepted. Missing: the code does not look at the status of the levels and does not compare with 6. -/
theorem C162_good_identities_partial (c : Cfg) (s0 s' : Chain) (ops : List Op) (o : Origin) (quote : Bytes) (url : Option Bytes) (p : Bool)
    (h0 : (∀ f, s0.tx.tcb f = none) ∧ s0.tx.qe.tcb = [])
    (hgood : ∀ s b data sig chain i,
      LastOf RegistersIdentity (accepted c s0 ops) s (.ext (.signed b) (.registerQuotingEnclave data sig chain)) →
      c.ext.parseIdentity data = some i → ∀ l ∈ i.tcbLevels, l.tcbStatus = .upToDate ∧ 6 ≤ l.isvsvn)
    (h : exec c (run c s0 ops) (.ext o (.registerSgxEnclave quote url (.dcap p))) = .ok s') :
    6 ≤ qeVersion quote ∧
    ∃ s b data sig chain i l,
      LastOf RegistersIdentity (accepted c s0 ops) s (.ext (.signed b) (.registerQuotingEnclave data sig chain)) ∧
      c.ext.parseIdentity data = some i ∧ Reaches i (qeVersion quote) l ∧ l.tcbStatus = .upToDate := by
  obtain ⟨s, b, d, g, ch, i, l, hm, _, hp, hr⟩ := C162_listed_partial c s0 s' ops o quote url p h0 h
  obtain ⟨before, after, hl, hle, hb⟩ := hr
  have hg := hgood s b d g ch i hm hp l (by rw [hl]; simp)
  exact ⟨Nat.le_trans hg.2 hle, s, b, d, g, ch, i, l, hm, hp, ⟨before, after, hl, hle, hb⟩, hg.1⟩

/-- C162: exactly what the listed versions decide. A quote that is accepted with some list is accepted with another list if and only
if its quoting enclave is not older than the least version in that list; nothing else about the levels matters. -/
theorem C162_sharp (c : Cfg) (s s' : Chain) (o : Origin) (quote : Bytes) (url : Option Bytes) (p : Bool) (vs : List Nat)
    (h : exec c s (.ext o (.registerSgxEnclave quote url (.dcap p))) = .ok s') :
    (∃ t', exec c { s with tx := { s.tx with qe := { s.tx.qe with tcb := vs } } } (.ext o (.registerSgxEnclave quote url (.dcap p))) =
      .ok t') ↔ ∃ v ∈ vs, v ≤ qeVersion quote := by
  constructor
  · rintro ⟨t', ht⟩
    exact (dcap_matches ht).svn
  · intro hv
    obtain ⟨a, e, h1, h2, h3, h4, h5, h6, h7, h8⟩ := register_iff.mp h
    have hatt : Attested c { s with tx := { s.tx with qe := { s.tx.qe with tcb := vs } } } a quote e := by
      unfold Attested at h6 ⊢
      simp only [h4] at h6 ⊢
      obtain ⟨f, t, r, info, k1, k2, k3, k4⟩ := h6
      refine ⟨f, t, r, info, ?_, k2, k3, k4⟩
      exact { k1 with qeMatches := ⟨k1.qeMatches.prodId, k1.qeMatches.signer, k1.qeMatches.misc, k1.qeMatches.flags, hv⟩ }
    rcases h8 with ⟨g1, g2, _⟩ | ⟨g1, _⟩
    · exact ⟨_, register_iff.mpr ⟨a, e, h1, h2, h3, h4, h5, hatt, h7, .inl ⟨g1, g2, rfl⟩⟩⟩
    · exact ⟨_, register_iff.mpr ⟨a, e, h1, h2, h3, h4, h5, hatt, h7, .inr ⟨g1, rfl⟩⟩⟩

/-- The check of the code that nothing calls is the comparison with 6. -/
theorem QeTcbLevel.isValid_iff (l : QeTcbLevel) : l.isValid = true ↔ 6 ≤ l.isvsvn := by simp [QeTcbLevel.isValid]

/-! ### Examples -/

/-- The identity lists version 8 as up to date and version 2 as out of date. A quote of version 3 is accepted. -/
theorem oldQe_accepted : qeVersion (quote 0 alice.val) = 3 ∧ (okCfg.ext.parseIdentity (bytes 3 2)).map (·.tcbLevels) =
      some [⟨8, 0, .upToDate, none⟩, ⟨2, 0, .outOfDate, some ["INTEL-SA-00615"]⟩] ∧
    (exec okCfg (run okCfg start [regTcb 3]) (regQe 3)).isOk = true ∧
    (exec okCfg (run okCfg start [regTcb 3, regQe 3])
      (.ext (.signed alice) (.registerSgxEnclave (quote 0 alice.val) none (.dcap false)))).isOk = true := by decide +kernel

theorem C162_refuted : ¬ C162_Full := by
  intro h
  obtain ⟨h1, h2, h3, h4⟩ := oldQe_accepted
  obtain ⟨i, hi, hl⟩ := Option.map_eq_some_iff.mp h2
  have e1 := exec_ok_of_isOk h3
  have e2 := exec_ok_of_isOk h4
  have := (h okCfg _ _ _ _ _ (bytes 3 2) (bytes 64 1) pem _ _ _ i ⟨2, 0, .outOfDate, some ["INTEL-SA-00615"]⟩ e1 hi e2
    ⟨[⟨8, 0, .upToDate, none⟩], [], hl, by rw [h1]; decide, by rw [h1]; decide⟩).1
  cases this

/-- The hypotheses of `C162_listed_partial` and `C162_sharp` are met by that history: with the versions 8 and 3 listed the quote is
accepted, with 8 and 4 it is not. -/
example : (∀ f, start.tx.tcb f = none) ∧ start.tx.qe.tcb = [] ∧
    (exec okCfg (run okCfg start [regTcb 3, regQe 3])
      (.ext (.signed alice) (.registerSgxEnclave (quote 0 alice.val) none (.dcap false)))).isOk = true ∧
    (∃ v ∈ [8, 3], v ≤ qeVersion (quote 0 alice.val)) ∧ ¬ ∃ v ∈ [8, 4], v ≤ qeVersion (quote 0 alice.val) :=
  ⟨fun _ => rfl, rfl, oldQe_accepted.2.2.2, by decide +kernel, by decide +kernel⟩

/-- A quote of a quoting enclave with version 9. -/
def quote9 : Bytes :=
  [3, 0, 2, 0] ++ bytes 44 0 ++ reportBody 0 alice.val ++ bytes 4 0 ++ bytes 64 1 ++ bytes 64 2 ++
    (bytes 128 0 ++ bytes 32 5 ++ bytes 96 0 ++ [1, 0] ++ [9, 0] ++ bytes 124 0) ++
    bytes 64 3 ++ [32, 0] ++ bytes 32 4 ++ [5, 0] ++ [27, 0, 0, 0] ++ pem

/-- The identity lists only version 8, which is up to date. -/
def goodCfg : Cfg := { okCfg with ext := { okExt with
  json := fun d => if d.head? = some 2 then some (({ identity d.length with tcbLevels := [⟨8, 0, .upToDate, none⟩] }).toJson dateText)
    else readJson d } }

/-- The hypotheses of `C162_good_identities_partial` are met. -/
example : 6 ≤ qeVersion quote9 := by
  refine (C162_good_identities_partial goodCfg start _ [regTcb 3, regQe 3] (.signed alice) quote9 none true ⟨fun _ => rfl, rfl⟩ ?_
    (exec_ok_of_isOk (op := .ext (.signed alice) (.registerSgxEnclave quote9 none (.dcap true))) (by decide +kernel))).1
  intro s b data sig chain i ⟨before, after, hacc, _, _⟩ hi l hl
  have hop := accepted_mem (hacc ▸ List.mem_append_right before List.mem_cons_self)
  simp only [regTcb, regQe, List.mem_cons, List.not_mem_nil, or_false] at hop
  rcases hop with h | h
  · cases h
  · cases h
    have : (goodCfg.ext.parseIdentity (bytes 3 2)).map (·.tcbLevels) = some [⟨8, 0, .upToDate, none⟩] := by decide +kernel
    rw [hi, Option.map_some, Option.some.injEq] at this
    rw [this, List.mem_singleton] at hl
    rw [hl]
    decide

end Verif
