import Verif.Spec.LastCollateral
import Verif.Props.Hinder
import Verif.Props.Teerex

/-!
# The collateral that counts is the one that was registered last: C172
-/

namespace Verif

open Demo

theorem LastOf.snoc {kind : Op → Prop} {acc : List (Chain × Op)} {s t : Chain} {op k : Op} :
    LastOf kind (acc ++ [(t, k)]) s op ↔ (kind k ∧ s = t ∧ op = k) ∨ (¬ kind k ∧ LastOf kind acc s op) := by
  constructor
  · rintro ⟨before, after, hacc, hk, ha⟩
    rcases List.eq_nil_or_concat after with rfl | ⟨after', q, rfl⟩
    · have h2 := List.append_inj_right' hacc (by simp)
      simp only [List.cons.injEq, Prod.mk.injEq, and_true] at h2
      obtain ⟨rfl, rfl⟩ := h2
      exact .inl ⟨hk, rfl, rfl⟩
    · rw [List.concat_eq_append, ← List.cons_append, ← List.append_assoc] at hacc
      have h1 := List.append_inj_left' hacc (by simp)
      have h2 := List.append_inj_right' hacc (by simp)
      simp only [List.cons.injEq, and_true] at h2
      refine .inr ⟨?_, before, after', h1, hk, fun p hp => ha p (by simp [hp])⟩
      have := ha q (by simp)
      rwa [← h2] at this
  · rintro (⟨hk, rfl, rfl⟩ | ⟨hn, before, after, rfl, hk, ha⟩)
    · exact ⟨acc, [], rfl, hk, by simp⟩
    · refine ⟨before, after ++ [(t, k)], by simp, hk, fun p hp => ?_⟩
      rcases List.mem_append.mp hp with hp | hp
      · exact ha p hp
      · rw [List.mem_singleton.mp hp]; exact hn

/-- An accepted operation changes the identity of the quoting enclave exactly if it registers one. -/
theorem identity_effect {c : Cfg} {s s' : Chain} {op : Op} (h : exec c s op = .ok s') :
    (¬ RegistersIdentity op ∧ s'.tx.qe = s.tx.qe) ∨
    ∃ b d g ch, op = .ext (.signed b) (.registerQuotingEnclave d g ch) ∧ SignedIdentity c s.now d g ch s'.tx.qe := by
  by_cases hk : RegistersIdentity op
  · obtain ⟨o, d, g, ch, rfl⟩ := hk
    obtain ⟨b, q, rfl, hq, rfl⟩ := Teerex.registerQuotingEnclave_ok.mp h
    exact .inr ⟨b, d, g, ch, rfl, (signedIdentity_iff.mp hq).2⟩
  · rcases (collateral_effect h).1 with h1 | ⟨b, d, g, ch, rfl, _⟩
    · exact .inl ⟨hk, h1⟩
    · exact absurd ⟨_, d, g, ch, rfl⟩ hk

/-- An accepted operation changes the TCB info for some platforms exactly if it registers one for them. -/
theorem tcbInfo_effect {c : Cfg} {s s' : Chain} {op : Op} (f : Fmspc) (h : exec c s op = .ok s') :
    (¬ RegistersTcbInfo c f op ∧ s'.tx.tcb f = s.tx.tcb f) ∨
    ∃ b d g ch info, op = .ext (.signed b) (.registerTcbInfo d g ch) ∧ RegistersTcbInfo c f op ∧ s'.tx.tcb f = some info ∧
      SignedTcbInfo c s.now d g ch f info := by
  by_cases hk : RegistersTcbInfo c f op
  · obtain ⟨o, d, g, ch, doc, rfl, hp, hf⟩ := hk
    obtain ⟨b, f', info, rfl, hv, rfl⟩ := Teerex.registerTcbInfo_ok.mp h
    have hs := (signedTcbInfo_iff.mp hv).2
    have hff : f' = f := by
      obtain ⟨_, _, _, _, p, _, _, _, _, _, hp', _, _, _, _, h, _⟩ := hs
      rw [hp] at hp'
      rw [h, ← hf, Option.some.inj hp']
    subst hff
    exact .inr ⟨b, d, g, ch, info, rfl, ⟨_, d, g, ch, doc, rfl, hp, hf⟩, by simp, hs⟩
  · rcases (collateral_effect h).2 f with h1 | ⟨b, d, g, ch, info, rfl, _, hs⟩
    · exact .inl ⟨hk, h1⟩
    · obtain ⟨_, _, _, _, p, _, _, _, _, _, hp', _, _, _, _, hf, _⟩ := hs
      exact absurd ⟨_, d, g, ch, p, rfl, hp', hf.symm⟩ hk

/-- C172: at every point of every history the stored identity of the quoting enclave is the one that was registered last,
and the stored TCB info for some platforms is the one that was registered last for these platforms. The hypotheses are met
by the example below. -/
theorem C172_last_counts (c : Cfg) (s0 : Chain) (ops : List Op) :
    (∀ s op, LastOf RegistersIdentity (accepted c s0 ops) s op → ∃ b d g ch,
      op = .ext (.signed b) (.registerQuotingEnclave d g ch) ∧ SignedIdentity c s.now d g ch (run c s0 ops).tx.qe) ∧
    (∀ f s op, LastOf (RegistersTcbInfo c f) (accepted c s0 ops) s op → ∃ b d g ch info,
      op = .ext (.signed b) (.registerTcbInfo d g ch) ∧ (run c s0 ops).tx.tcb f = some info ∧
      SignedTcbInfo c s.now d g ch f info) := by
  refine history_induction (c := c) (s0 := s0) (P := fun st acc =>
    (∀ s op, LastOf RegistersIdentity acc s op → ∃ b d g ch,
      op = .ext (.signed b) (.registerQuotingEnclave d g ch) ∧ SignedIdentity c s.now d g ch st.tx.qe) ∧
    (∀ f s op, LastOf (RegistersTcbInfo c f) acc s op → ∃ b d g ch info,
      op = .ext (.signed b) (.registerTcbInfo d g ch) ∧ st.tx.tcb f = some info ∧
      SignedTcbInfo c s.now d g ch f info)) ?_ ?_ ops
  · exact ⟨fun s op ⟨_, _, h, _⟩ => by simp at h, fun f s op ⟨_, _, h, _⟩ => by simp at h⟩
  · rintro s s' op acc ⟨ih1, ih2⟩ hx
    constructor
    · intro t k hl
      rcases identity_effect hx with ⟨hn, h1⟩ | ⟨b, d, g, ch, rfl, h1⟩
      · rcases LastOf.snoc.mp hl with ⟨hk, _⟩ | ⟨_, hl⟩
        · exact absurd hk hn
        · rw [h1]; exact ih1 t k hl
      · rcases LastOf.snoc.mp hl with ⟨_, rfl, rfl⟩ | ⟨hn, _⟩
        · exact ⟨b, d, g, ch, rfl, h1⟩
        · exact absurd ⟨_, d, g, ch, rfl⟩ hn
    · intro f t k hl
      rcases tcbInfo_effect f hx with ⟨hn, h1⟩ | ⟨b, d, g, ch, info, rfl, hk, h1, h2⟩
      · rcases LastOf.snoc.mp hl with ⟨hk, _⟩ | ⟨_, hl⟩
        · exact absurd hk hn
        · rw [h1]; exact ih2 f t k hl
      · rcases LastOf.snoc.mp hl with ⟨_, rfl, rfl⟩ | ⟨hn, _⟩
        · exact ⟨b, d, g, ch, info, rfl, h1, h2⟩
        · exact absurd hk hn

/-- What is stored was registered, if there was nothing at the beginning. -/
theorem last_exists (c : Cfg) (s0 : Chain) (ops : List Op) (h0 : (∀ f, s0.tx.tcb f = none) ∧ s0.tx.qe.tcb = []) :
    ((run c s0 ops).tx.qe.tcb ≠ [] → ∃ s op, LastOf RegistersIdentity (accepted c s0 ops) s op) ∧
    (∀ f, (run c s0 ops).tx.tcb f ≠ none → ∃ s op, LastOf (RegistersTcbInfo c f) (accepted c s0 ops) s op) := by
  refine history_induction (c := c) (s0 := s0) (P := fun st acc =>
    (st.tx.qe.tcb ≠ [] → ∃ s op, LastOf RegistersIdentity acc s op) ∧
    (∀ f, st.tx.tcb f ≠ none → ∃ s op, LastOf (RegistersTcbInfo c f) acc s op)) ?_ ?_ ops
  · exact ⟨fun h => absurd h0.2 h, fun f h => absurd (h0.1 f) h⟩
  · rintro s s' op acc ⟨ih1, ih2⟩ hx
    constructor
    · intro h
      rcases identity_effect hx with ⟨hn, h1⟩ | ⟨b, d, g, ch, rfl, h1⟩
      · rw [h1] at h
        obtain ⟨t, k, hl⟩ := ih1 h
        exact ⟨t, k, LastOf.snoc.mpr (.inr ⟨hn, hl⟩)⟩
      · exact ⟨s, _, LastOf.snoc.mpr (.inl ⟨⟨_, d, g, ch, rfl⟩, rfl, rfl⟩)⟩
    · intro f h
      rcases tcbInfo_effect f hx with ⟨hn, h1⟩ | ⟨b, d, g, ch, info, rfl, hk, h1, h2⟩
      · rw [h1] at h
        obtain ⟨t, k, hl⟩ := ih2 f h
        exact ⟨t, k, LastOf.snoc.mpr (.inr ⟨hn, hl⟩)⟩
      · exact ⟨s, _, LastOf.snoc.mpr (.inl ⟨hk, rfl, rfl⟩)⟩

/-- C172: a quote is judged by the collateral that was registered last: it is accepted only if its quoting enclave matches
the last identity, and the status in the registry and in the event is that of the first level that its platform reaches in
the last TCB info for this platform. Earlier collateral has no influence. The hypotheses are met by the example below. -/
theorem C172_judged (c : Cfg) (s0 s' : Chain) (ops : List Op) (o : Origin) (quote : Bytes) (url : Option Bytes) (p : Bool)
    (h0 : (∀ f, s0.tx.tcb f = none) ∧ s0.tx.qe.tcb = [])
    (h : exec c (run c s0 ops) (.ext o (.registerSgxEnclave quote url (.dcap p))) = .ok s') :
    ∃ sq bq dq gq chq id, LastOf RegistersIdentity (accepted c s0 ops) sq (.ext (.signed bq) (.registerQuotingEnclave dq gq chq)) ∧
      SignedIdentity c sq.now dq gq chq id ∧
    ∃ f t r, AuthenticQuote c.ext quote (run c s0 ops).now id f t r ∧
    ∃ st bt dt gt cht info, LastOf (RegistersTcbInfo c f) (accepted c s0 ops) st (.ext (.signed bt) (.registerTcbInfo dt gt cht)) ∧
      SignedTcbInfo c st.now dt gt cht f info ∧
    ∃ a e, o = .signed a ∧ FirstDominated info t e.status ∧
      (s'.tx.sovereign a = some e ∨ ∃ x, s'.tx.proxied x = some e) ∧
      s'.tx.events = .addedSgxEnclave a url (some e.status) (.dcap p) :: (run c s0 ops).tx.events := by
  obtain ⟨a, e, ho, _, _, hm, _, hatt, _, hs⟩ := register_iff.mp h
  simp only [Attested, hm] at hatt
  obtain ⟨f, t, r, info, hq, _, hi, hst⟩ := hatt
  obtain ⟨l1, l2⟩ := last_exists c s0 ops h0
  obtain ⟨c1, c2⟩ := C172_last_counts c s0 ops
  obtain ⟨v, hv, _⟩ := hq.qeMatches.svn
  obtain ⟨sq, kq, hlq⟩ := l1 (fun hn => by rw [hn] at hv; cases hv)
  obtain ⟨bq, dq, gq, chq, rfl, hsq⟩ := c1 sq kq hlq
  obtain ⟨st, kt, hlt⟩ := l2 f (by rw [hi]; simp)
  obtain ⟨bt, dt, gt, cht, info', rfl, hi', hst'⟩ := c2 f st kt hlt
  rw [hi] at hi'
  obtain rfl := Option.some.inj hi'
  refine ⟨sq, bq, dq, gq, chq, _, hlq, hsq, f, t, r, hq, st, bt, dt, gt, cht, info, hlt, hst', a, e, ho, hst, ?_, ?_⟩
  · rcases hs with ⟨_, _, rfl⟩ | ⟨_, rfl⟩
    · exact .inl (by simp)
    · exact .inr ⟨⟨e.mrEnclave, a, .opaque (e.reportData.val ++ [0, 0])⟩, by simp⟩
  · rcases hs with ⟨_, _, rfl⟩ | ⟨_, rfl⟩ <;> rfl

/-- C172: two chains on which the same documents were registered last, at whatever times and after whatever histories,
store the same collateral. -/
theorem C172_nothing_else (c : Cfg) (s0 t0 : Chain) (ops ops' : List Op) :
    (∀ s t o o' d g ch g' ch', LastOf RegistersIdentity (accepted c s0 ops) s (.ext o (.registerQuotingEnclave d g ch)) →
      LastOf RegistersIdentity (accepted c t0 ops') t (.ext o' (.registerQuotingEnclave d g' ch')) →
      (run c s0 ops).tx.qe = (run c t0 ops').tx.qe) ∧
    (∀ f s t o o' d g ch g' ch', LastOf (RegistersTcbInfo c f) (accepted c s0 ops) s (.ext o (.registerTcbInfo d g ch)) →
      LastOf (RegistersTcbInfo c f) (accepted c t0 ops') t (.ext o' (.registerTcbInfo d g' ch')) →
      (run c s0 ops).tx.tcb f = (run c t0 ops').tx.tcb f) := by
  obtain ⟨a1, a2⟩ := C172_last_counts c s0 ops
  obtain ⟨b1, b2⟩ := C172_last_counts c t0 ops'
  constructor
  · intro s t o o' d g ch g' ch' h1 h2
    obtain ⟨_, _, _, _, e1, h1⟩ := a1 _ _ h1
    obtain ⟨_, _, _, _, e2, h2⟩ := b1 _ _ h2
    cases e1; cases e2
    obtain ⟨_, _, _, _, p, _, _, _, _, _, k, _, _, _, _, x1, x2, x3, x4, x5, x6, x7, x8, x9⟩ := h1
    obtain ⟨_, _, _, _, p', _, _, _, _, _, k', _, _, _, _, y1, y2, y3, y4, y5, y6, y7, y8, y9⟩ := h2
    rw [k] at k'
    obtain rfl := Option.some.inj k'
    revert x1 x2 x3 x4 x5 x6 x7 x8 x9 y1 y2 y3 y4 y5 y6 y7 y8 y9
    generalize (run c s0 ops).tx.qe = q
    generalize (run c t0 ops').tx.qe = q'
    intro x1 x2 x3 x4 x5 x6 x7 x8 x9 y1 y2 y3 y4 y5 y6 y7 y8 y9
    cases q; cases q'
    simp only [SgxQuotingEnclave.mk.injEq]
    simp only at x1 x2 x3 x4 x5 x6 x7 x8 x9 y1 y2 y3 y4 y5 y6 y7 y8 y9
    refine ⟨?_, ?_, ?_, ?_, ?_, ?_, ?_, ?_, ?_⟩ <;> first | omega | simp_all
  · intro f s t o o' d g ch g' ch' h1 h2
    obtain ⟨_, _, _, _, i, e1, r1, h1⟩ := a2 f _ _ h1
    obtain ⟨_, _, _, _, i', e2, r2, h2⟩ := b2 f _ _ h2
    cases e1; cases e2
    rw [r1, r2]
    obtain ⟨_, _, _, _, p, _, _, _, _, _, k, _, _, _, _, _, x1, x2, x3, x4⟩ := h1
    obtain ⟨_, _, _, _, p', _, _, _, _, _, k', _, _, _, _, _, y1, y2, y3, y4⟩ := h2
    rw [k] at k'
    obtain rfl := Option.some.inj k'
    have hl : i.tcbLevels = i'.tcbLevels := by
      refine List.ext_getElem (by rw [x3, y3]) fun n hn hn' => ?_
      have hp : n < p.tcbLevels.length := by omega
      obtain ⟨u1, u2, u3⟩ := x4 n hn hp
      obtain ⟨v1, v2, v3⟩ := y4 n hn' hp
      generalize i.tcbLevels[n] = l at *
      generalize i'.tcbLevels[n] = l' at *
      cases l with | mk a b d => cases l' with | mk a' b' d' =>
      simp only at u1 u2 u3 v1 v2 v3
      have : a = a' := Subtype.ext (u1.trans v1.symm)
      simp_all
    cases i; cases i'
    simp only at x1 x2 y1 y2 hl
    simp only [Option.some.injEq, SgxTcbInfoOnChain.mk.injEq]
    exact ⟨by omega, by omega, hl⟩

/-! ### Examples -/

/-- An accepted registration at the end of a history is the last one. -/
theorem last_of_snoc {c : Cfg} {s0 : Chain} {ops : List Op} {op : Op} {kind : Op → Prop} (hk : kind op)
    (h : (exec c (run c s0 ops) op).isOk = true) : LastOf kind (accepted c s0 (ops ++ [op])) (run c s0 ops) op := by
  rw [accepted_snoc, exec_ok_of_isOk h]
  exact LastOf.snoc.mpr (.inl ⟨hk, rfl, rfl⟩)

/-- The collateral is registered twice, with other dates, and then a quote is accepted. The hypotheses of `C172_judged` are
met, and its conclusion gives the second identity. -/
example : ∃ s', exec okCfg (run okCfg start [regTcb 3, regQe 3, regTcb 4, regQe 4])
      (.ext (.signed alice) (.registerSgxEnclave (quote 0 alice.val) none (.dcap false))) = .ok s' ∧
    (∀ f, start.tx.tcb f = none) ∧ start.tx.qe.tcb = [] ∧
    LastOf RegistersIdentity (accepted okCfg start ([regTcb 3, regQe 3, regTcb 4] ++ [regQe 4]))
      (run okCfg start [regTcb 3, regQe 3, regTcb 4]) (regQe 4) :=
  ⟨_, exec_ok_of_isOk (op := .ext (.signed alice) (.registerSgxEnclave (quote 0 alice.val) none (.dcap false))) (by decide +kernel),
    fun _ => rfl, rfl, last_of_snoc ⟨_, _, _, _, rfl⟩ (by decide +kernel)⟩

/-- With the same document at the end, the earlier one does not matter, for identities and for TCB infos: the hypotheses of
`C172_nothing_else` (and of `C172_last_counts`) are met. With another document at the end, the chains differ. -/
example : (run okCfg start [regQe 4, regQe 3]).tx.qe = (run okCfg start [regTcb 3, regQe 3]).tx.qe ∧
    (run okCfg start [regTcb 4, regTcb 3]).tx.tcb demoFmspc = (run okCfg start [regQe 3, regTcb 3]).tx.tcb demoFmspc ∧
    (run okCfg start [regQe 3, regQe 4]).tx.qe ≠ (run okCfg start [regTcb 3, regQe 3]).tx.qe := by
  have hd : (okCfg.ext.parseTcbInfo (bytes 3 1)).map (·.fmspc) = some demoFmspc := by decide +kernel
  obtain ⟨doc, h1, h2⟩ := Option.map_eq_some_iff.mp hd
  refine ⟨(C172_nothing_else okCfg start start ([regQe 4] ++ [regQe 3]) ([regTcb 3] ++ [regQe 3])).1 _ _ _ _ _ _ _ _ _
      (last_of_snoc ⟨_, _, _, _, rfl⟩ (by decide +kernel)) (last_of_snoc ⟨_, _, _, _, rfl⟩ (by decide +kernel)),
    (C172_nothing_else okCfg start start ([regTcb 4] ++ [regTcb 3]) ([regQe 3] ++ [regTcb 3])).2 demoFmspc _ _ _ _ _ _ _ _ _
      (last_of_snoc ⟨_, _, _, _, doc, rfl, h1, h2⟩ (by decide +kernel))
      (last_of_snoc ⟨_, _, _, _, doc, rfl, h1, h2⟩ (by decide +kernel)), ?_⟩
  intro h
  have := congrArg SgxQuotingEnclave.issueDate h
  revert this
  decide +kernel

end Verif
