import Verif.Props.Teerex
import Verif.Props.Trust
import Verif.Props.Hinder
import Verif.Props.Sidechain
import Verif.Props.Accept
import Verif.Spec.Renewal

/-!
# Renewal of attestations: C166, C167, C168, C169
-/

namespace Verif

open Demo EnclaveBridge

/-! ### C166 An enclave that renews its attestation in time cannot be removed -/

/-- The time of an accepted registration is stored. -/
theorem timestamp_of_attested {c : Cfg} {s : Chain} {a : AccountId} {proof : Bytes} {e : SgxEnclave} {t : Nat}
    (h : Attested c s a proof e) (ht : AttestedAt c s proof e.method t) : e.timestamp = t := by
  cases hm : e.method with
  | ias =>
    simp only [Attested, AttestedAt, hm] at h ht
    obtain ⟨r, h1, ⟨_, _, _, h2, _⟩, _⟩ := h
    obtain ⟨r', h3, rfl⟩ := ht
    have := (verifyIasReport_ok.mpr h1).symm.trans (verifyIasReport_ok.mpr h3)
    simp only [Except.ok.injEq] at this
    rw [h2, this]
  | dcap p =>
    simp only [Attested, AttestedAt, hm] at h ht
    obtain ⟨f, tcb, r, info, h1, ⟨_, _, _, h2, _⟩, _⟩ := h
    rw [h2, h1.timestamp, ht]
  | skip p =>
    simp only [Attested, AttestedAt, hm] at h ht
    rw [h.2.2.2.2.2.1, ht]

/-- The evidence of a registration determines the code and the data in the report. -/
theorem attested_same {c : Cfg} {s : Chain} {a : AccountId} {proof : Bytes} {e e' : SgxEnclave} (hm : e.method = e'.method)
    (h : Attested c s a proof e) (h' : Attested c s a proof e') : e.mrEnclave = e'.mrEnclave ∧ e.reportData = e'.reportData := by
  unfold Attested at h h'
  rw [← hm] at h'
  cases hx : e.method with
  | ias =>
    simp only [hx] at h h'
    obtain ⟨r, h1, ⟨h2, h3, _⟩, _⟩ := h
    obtain ⟨r', h1', ⟨h2', h3', _⟩, _⟩ := h'
    have := (verifyIasReport_ok.mpr h1).symm.trans (verifyIasReport_ok.mpr h1')
    simp only [Except.ok.injEq] at this
    rw [h2, h3, h2', h3', this]
    exact ⟨rfl, rfl⟩
  | dcap p =>
    simp only [hx] at h h'
    obtain ⟨f, t, r, i, h1, ⟨h2, h3, _⟩, _⟩ := h
    obtain ⟨f', t', r', i', h1', ⟨h2', h3', _⟩, _⟩ := h'
    have := (verifyDcapQuote_ok.mpr h1).symm.trans (verifyDcapQuote_ok.mpr h1')
    simp only [Except.ok.injEq, Prod.mk.injEq] at this
    rw [h2, h3, h2', h3', this.2.2]
    exact ⟨rfl, rfl⟩
  | skip p =>
    simp only [hx] at h h'
    refine ⟨Subtype.ext ?_, Subtype.ext (h.2.1.trans h'.2.1.symm)⟩
    by_cases hl : 32 ≤ proof.length
    · rw [h.2.2.1 hl, h'.2.2.1 hl]
    · rw [h.2.2.2.1 (by omega), h'.2.2.2.1 (by omega)]

/-- The accepted operations of a history in two parts. -/
theorem accepted_parts (c : Cfg) (s : Chain) (l l' : List Op) :
    accepted c s (l ++ l') = accepted c s l ++ accepted c (run c s l) l' := by
  induction l generalizing s with
  | nil => rfl
  | cons op l ih =>
    cases h : exec c s op with
    | ok s' => rw [List.cons_append, accepted_cons_ok h, accepted_cons_ok h, ih, run_cons, step_of_ok h]; rfl
    | error e => rw [List.cons_append, accepted_cons_error h, accepted_cons_error h, ih, run_cons, step_of_error h]

/-- A list that ends with an operation that is not a registration has the same last registration. -/
theorem LastRenewal.of_snoc {acc : List (Chain × Op)} {a : AccountId} {s t : Chain} {op : Op} {proof : Bytes}
    {m : SgxAttestationMethod} (h : LastRenewal (acc ++ [(t, op)]) a s proof m) (hop : op.attests a = false) :
    LastRenewal acc a s proof m := by
  obtain ⟨before, url, after, hacc, hm, ha⟩ := h
  rcases List.eq_nil_or_concat after with rfl | ⟨after', q, rfl⟩
  · have h2 := List.append_inj_right' hacc (by simp)
    simp only [List.cons.injEq, Prod.mk.injEq, and_true] at h2
    rw [h2.2] at hop
    simp [Op.attests, hm] at hop
  · rw [List.concat_eq_append, ← List.cons_append, ← List.append_assoc] at hacc
    have h2 := List.append_inj_left' hacc (by simp)
    exact ⟨before, url, after', h2, hm, fun p hp => ha p (by simp [hp])⟩

/-- A list that ends with a registration has that as its last registration. -/
theorem LastRenewal.of_attests {acc : List (Chain × Op)} {a : AccountId} {s t : Chain} {op : Op} {proof : Bytes}
    {m : SgxAttestationMethod} (h : LastRenewal (acc ++ [(t, op)]) a s proof m) (hop : op.attests a = true) :
    s = t ∧ ∃ url, op = .ext (.signed a) (.registerSgxEnclave proof url m) := by
  obtain ⟨before, url, after, hacc, hm, ha⟩ := h
  rcases List.eq_nil_or_concat after with rfl | ⟨after', q, rfl⟩
  · have h2 := List.append_inj_right' hacc (by simp)
    simp only [List.cons.injEq, Prod.mk.injEq, and_true] at h2
    exact ⟨h2.1.symm, url, h2.2⟩
  · rw [List.concat_eq_append, ← List.cons_append, ← List.append_assoc] at hacc
    have h2 := List.append_inj_right' hacc (by simp)
    simp only [List.cons.injEq, and_true] at h2
    have := ha q (by simp)
    rw [← h2] at this
    rw [this] at hop
    simp at hop

/-- Registrations and what they mean for the entry of an account. -/
theorem attests_effect {c : Cfg} {s s' : Chain} {op : Op} (h : exec c s op = .ok s') (a : AccountId) :
    (op.attests a = false ∧ (s'.tx.sovereign a = s.tx.sovereign a ∨
      ∃ e, s.tx.sovereign a = some e ∧ e.timestamp + c.maxRenewal < s.now ∧ s'.tx.sovereign a = none)) ∨
    (op.attests a = true ∧ ∃ proof url m e, op = .ext (.signed a) (.registerSgxEnclave proof url m) ∧ e.method = m ∧
      e.url = url ∧ Attested c s a proof e ∧ s'.tx.sovereign a = some e) := by
  rcases sovereign_effect h a with h1 | ⟨proof, url, m, e, rfl, hm, hu, _, _, hat, _, hp, _, hs⟩ | ⟨b, e, rfl, h1, h2, h3⟩
  · cases hc : op.attests a with
    | false => exact .inl ⟨rfl, .inl h1⟩
    | true =>
      right
      cases op with
      | ext o k =>
        cases k with
        | registerSgxEnclave proof url m =>
          simp only [Op.attests, Bool.and_eq_true, decide_eq_true_eq] at hc
          obtain ⟨rfl, hm⟩ := hc
          obtain ⟨b, e, hb, _, _, h3, h4, h5, _, (⟨_, _, rfl⟩ | ⟨h7, rfl⟩)⟩ := register_iff.mp h
          · cases hb
            exact ⟨rfl, proof, url, m, e, rfl, h3, h4, h5, by simp⟩
          · exfalso
            subst h3
            rcases hx : e.method with p | _ | p <;> simp [SgxAttestationMethod.sovereign, SgxEnclave.proxied, hx] at hm h7
            all_goals subst hm; simp at h7
        | _ => simp [Op.attests] at hc
      | _ => simp [Op.attests] at hc
  · right
    refine ⟨?_, proof, url, m, e, rfl, hm, hu, hat, hs⟩
    subst hm
    rcases hx : e.method with p | _ | p <;>
      simp only [SgxEnclave.proxied, hx, Op.attests, SgxAttestationMethod.sovereign, decide_true, Bool.true_and] at hp ⊢
    all_goals cases p <;> simp_all
  · exact .inl ⟨rfl, .inr ⟨e, h1, h2, h3⟩⟩

/-- After the last registration of an enclave, its entry is the one made then, or it was removed when it was overdue. -/
theorem renewal_run (c : Cfg) (s0 : Chain) (ops : List Op) (a : AccountId) :
    ∀ s proof m t, LastRenewal (accepted c s0 ops) a s proof m → AttestedAt c s proof m t →
      (∃ e, (run c s0 ops).tx.sovereign a = some e ∧ e.method = m ∧ e.timestamp = t ∧ Attested c s a proof e) ∨
      ((run c s0 ops).tx.sovereign a = none ∧ t + c.maxRenewal < (run c s0 ops).now) := by
  refine history_induction (c := c) (s0 := s0) (P := fun s1 acc => ∀ s proof m t, LastRenewal acc a s proof m →
    AttestedAt c s proof m t → (∃ e, s1.tx.sovereign a = some e ∧ e.method = m ∧ e.timestamp = t ∧ Attested c s a proof e) ∨
      (s1.tx.sovereign a = none ∧ t + c.maxRenewal < s1.now)) ?_ ?_ ops
  · rintro s proof m t ⟨before, url, after, h, _⟩
    simp at h
  · intro s1 s2 op acc ih hx s proof m t hl hat
    have hle := exec_now_le hx
    rcases attests_effect hx a with ⟨hop, h⟩ | ⟨hop, proof', url, m', e, rfl, he, _, h1, h2⟩
    · rcases ih s proof m t (hl.of_snoc hop) hat with ⟨e, h1, h2, h3, h4⟩ | ⟨h3, h4⟩
      · rcases h with h | ⟨e', h5, h6, h7⟩
        · exact .inl ⟨e, h.trans h1, h2, h3, h4⟩
        · rw [h1] at h5
          obtain rfl := Option.some.inj h5
          exact .inr ⟨h7, by omega⟩
      · rcases h with h | ⟨e', h5, _, _⟩
        · exact .inr ⟨h.trans h3, by omega⟩
        · rw [h3] at h5; simp at h5
    · obtain ⟨rfl, url', h3⟩ := hl.of_attests hop
      simp only [Op.ext.injEq, Call.registerSgxEnclave.injEq, true_and] at h3
      obtain ⟨rfl, rfl, rfl⟩ := h3
      exact .inl ⟨e, h2, he, timestamp_of_attested h1 (he ▸ hat), h1⟩

/-- C166: take any state and any history, and the last registration in it of the enclave of account `a`. If at the end
no more than the renewal period has passed since the time of that attestation, then the enclave is registered, with what
that attestation proved, whatever anybody did in the meantime; nobody can remove it; and if its code is on the whitelist
of a source, it can write exchange rates. The hypotheses are met by the example below. -/
theorem C166_in_time (c : Cfg) (s0 s : Chain) (ops : List Op) (a : AccountId) (proof : Bytes) (m : SgxAttestationMethod)
    (t : Nat) (hlast : LastRenewal (accepted c s0 ops) a s proof m) (ht : AttestedAt c s proof m t)
    (hnow : (run c s0 ops).now ≤ t + c.maxRenewal) :
    ∃ e, (run c s0 ops).tx.sovereign a = some e ∧ e.method = m ∧ e.timestamp = t ∧ Attested c s a proof e ∧
      (∀ b, ¬ ∃ s', exec c (run c s0 ops) (.ext (.signed b) (.unregisterSovereignEnclave a)) = .ok s') ∧
      (∀ src pair rate, e.mrEnclave ∈ (run c s0 ops).orc.whitelist src → pair.length ≤ 11 →
        ∃ s', exec c (run c s0 ops) (.ext (.signed a) (.updateExchangeRate src pair rate)) = .ok s') := by
  rcases renewal_run c s0 ops a s proof m t hlast ht with ⟨e, h1, h2, h3, h4⟩ | ⟨_, h⟩
  · refine ⟨e, h1, h2, h3, h4, fun b hb => ?_, fun src pair rate hw hl => ?_⟩
    · obtain ⟨e', h5, h6⟩ := (C18_unregister_iff c _ b a).1.mp hb
      rw [h1] at h5
      obtain rfl := Option.some.inj h5
      omega
    · exact ⟨_, Teeracle.updateExchangeRate_ok.mpr ⟨a, e, rfl, h1, hl, hw, rfl⟩⟩
  · omega

/-- C166, the other side: once more than the renewal period has passed since the time of the last attestation, any
account can make sure that the enclave is not registered. The hypotheses are met by the example below. -/
theorem C166_overdue (c : Cfg) (s0 s : Chain) (ops : List Op) (a b : AccountId) (proof : Bytes) (m : SgxAttestationMethod)
    (t : Nat) (hlast : LastRenewal (accepted c s0 ops) a s proof m) (ht : AttestedAt c s proof m t)
    (hnow : t + c.maxRenewal < (run c s0 ops).now) :
    (run c s0 (ops ++ [.ext (.signed b) (.unregisterSovereignEnclave a)])).tx.sovereign a = none := by
  rw [run_snoc]
  rcases renewal_run c s0 ops a s proof m t hlast ht with ⟨e, h1, _, h3, _⟩ | ⟨h, _⟩
  · obtain ⟨s', hs⟩ := (C18_unregister_iff c (run c s0 ops) b a).1.mpr ⟨e, h1, by omega⟩
    rw [step_of_ok hs]
    exact ((C18_unregister_iff c _ b a).2 s' hs).1
  · cases hx : exec c (run c s0 ops) (.ext (.signed b) (.unregisterSovereignEnclave a)) with
    | ok s' =>
      rw [step_of_ok hx]
      exact ((C18_unregister_iff c _ b a).2 s' hx).1
    | error e => rw [step_of_error hx]; exact h

/-- Alice registers, others try to remove the enclave, Alice renews the registration a day later, and so on. -/
def renewals : List Op :=
  [regTcb 3, regQe 3, .ext (.signed alice) (.registerSgxEnclave (quote 0 alice.val) none (.dcap false)),
   .newBlock 86400000, .ext (.signed bob) (.unregisterSovereignEnclave alice)] ++
  .ext (.signed alice) (.registerSgxEnclave (quote 0 alice.val) none (.dcap false)) ::
  [.newBlock 86400001, .ext (.signed bob) (.unregisterSovereignEnclave alice)]

theorem renewals_last (l : List Op) (hl : ∀ op ∈ l, op.attests alice = false) :
    LastRenewal (accepted okCfg start (renewals ++ l)) alice (run okCfg start (renewals.take 5)) (quote 0 alice.val)
      (.dcap false) := by
  obtain ⟨s', h⟩ : ∃ s', exec okCfg (run okCfg start (renewals.take 5))
      (.ext (.signed alice) (.registerSgxEnclave (quote 0 alice.val) none (.dcap false))) = .ok s' :=
    ⟨_, exec_ok_of_isOk (by decide +kernel)⟩
  refine ⟨accepted okCfg start (renewals.take 5), none, accepted okCfg s' (renewals.drop 6 ++ l), ?_, rfl, fun p hp => ?_⟩
  · have h2 := accepted_parts okCfg start (renewals.take 5) (renewals.drop 5 ++ l)
    rw [← List.append_assoc, List.take_append_drop] at h2
    rw [h2]
    exact congrArg _ (accepted_cons_ok h)
  · rcases List.mem_append.mp (accepted_mem hp) with h3 | h3
    · have h3 : p.2 ∈ [Op.newBlock 86400001, .ext (.signed bob) (.unregisterSovereignEnclave alice)] := h3
      simp only [List.mem_cons, List.not_mem_nil, or_false] at h3
      rcases h3 with h3 | h3 <;> rw [h3] <;> rfl
    · exact hl _ h3

example :
    let s := run okCfg start (renewals.take 5)
    LastRenewal (accepted okCfg start (renewals ++ [])) alice s (quote 0 alice.val) (.dcap false) ∧
    AttestedAt okCfg s (quote 0 alice.val) (.dcap false) s.now ∧
    (run okCfg start (renewals ++ [])).now ≤ s.now + okCfg.maxRenewal ∧
    -- more than the period has passed since the first registration
    (run okCfg start (renewals.take 2)).now + okCfg.maxRenewal < (run okCfg start renewals).now ∧
    -- another two days later the enclave is overdue
    LastRenewal (accepted okCfg start (renewals ++ [.newBlock 172800000])) alice s (quote 0 alice.val) (.dcap false) ∧
    s.now + okCfg.maxRenewal < (run okCfg start (renewals ++ [.newBlock 172800000])).now :=
  ⟨renewals_last [] (by simp), rfl, by decide +kernel, by decide +kernel, renewals_last _ (by simp [Op.attests]),
    by decide +kernel⟩

/-- C166 for enclaves that act through the account that registered them: the enclave with address `p` is registered, with
what its last registration proved, as long as that registration is not older than the renewal period. The hypotheses are
met by the example below. -/
theorem C166_proxied_in_time (c : Cfg) (s0 s : Chain) (ops : List Op) (p : EnclaveInstanceAddress) (op : Op)
    (hlast : LastProxiedRenewal c (accepted c s0 ops) p s op) (hnow : (run c s0 ops).now ≤ s.now + c.maxRenewal) :
    ∃ e, (run c s0 ops).tx.proxied p = some e ∧ e.timestamp = s.now ∧ RegistersProxied c p s op e ∧
      (∀ b, ¬ ∃ s', exec c (run c s0 ops) (.ext (.signed b) (.unregisterProxiedEnclave p)) = .ok s') := by
  have key := history_induction (c := c) (s0 := s0) (P := fun s1 acc => ∀ s op, LastProxiedRenewal c acc p s op →
    (∃ e, s1.tx.proxied p = some e ∧ e.timestamp = s.now ∧ RegistersProxied c p s op e) ∨ s.now + c.maxRenewal < s1.now)
    ?_ ?_ ops
  · rcases key s op hlast with ⟨e, h1, h3, h4⟩ | h
    · refine ⟨e, h1, h3, h4, fun b hb => ?_⟩
      obtain ⟨e', h5, h6⟩ := (C18_unregister_proxied_iff c _ b p).1.mp hb
      rw [h1] at h5
      obtain rfl := Option.some.inj h5
      omega
    · omega
  · rintro s op ⟨before, after, h, _⟩
    simp at h
  · rintro s1 s2 op1 acc ih hx s op ⟨before, after, hacc, he, ha⟩
    have hle := exec_now_le hx
    rcases List.eq_nil_or_concat after with rfl | ⟨after', q, rfl⟩
    · have h2 := List.append_inj_right' hacc (by simp)
      simp only [List.cons.injEq, Prod.mk.injEq, and_true] at h2
      obtain ⟨rfl, rfl⟩ := h2
      obtain ⟨e0, proof, url, m, rfl, hm, hm0, hat0, hf0, hsg0⟩ := he
      obtain ⟨b, e, hb, _, _, h3, h4, h5, _, h6⟩ := register_iff.mp hx
      cases hb
      have hpx : e.proxied = true := by
        rw [← h3] at hm
        rcases hx : e.method with p | _ | p <;> rw [hx] at hm <;> simp [SgxAttestationMethod.sovereign] at hm <;>
          simp [SgxEnclave.proxied, hx, hm]
      have hts : e.timestamp = s1.now := by
        refine timestamp_of_attested h5 ?_
        rw [h3]
        rcases m with p | _ | p
        · rfl
        · simp [SgxAttestationMethod.sovereign] at hm
        · rfl
      rcases h6 with ⟨h6, _⟩ | ⟨_, rfl⟩
      · rw [h6] at hpx; simp at hpx
      · obtain ⟨h7, h8⟩ := attested_same (h3.trans hm0.symm) h5 hat0
        have hp : p = ⟨e.mrEnclave, p.registrar, .opaque (e.reportData.val ++ [0, 0])⟩ := by
          rw [h7, h8, ← hf0, ← hsg0]
        refine .inl ⟨e, ?_, hts, proof, url, m, rfl, hm, h3, h5, by rw [hf0, h7], by rw [hsg0, h8]⟩
        rw [← hp]
        simp
    · rw [List.concat_eq_append, ← List.cons_append, ← List.append_assoc] at hacc
      have h2 := List.append_inj_left' hacc (by simp)
      have h3 := List.append_inj_right' hacc (by simp)
      simp only [List.cons.injEq, and_true] at h3
      have hno := ha q (by simp)
      rw [← h3] at hno
      rcases ih s op ⟨before, after', h2, he, fun x hx => ha x (by simp [hx])⟩ with ⟨e, h4, h5, h6⟩ | h4
      · rcases proxied_effect hx p with h | ⟨proof, url, m, e', rfl, h7, _, _, _, h8, _, h9, h10, h11, _⟩ | ⟨b, e', rfl, h7, h8, _⟩
        · exact .inl ⟨e, h.trans h4, h5, h6⟩
        · exfalso
          refine hno e' ⟨proof, url, m, rfl, ?_, h7, h8, h10, h11⟩
          rw [← h7]
          rcases hx : e'.method with p | _ | p <;> simp only [SgxEnclave.proxied, hx, SgxAttestationMethod.sovereign] at h9 ⊢
          all_goals cases p <;> simp_all
        · rw [h4] at h7
          obtain rfl := Option.some.inj h7
          right; omega
      · right; omega

example : ∃ e, RegistersProxied okCfg proxiedAddress (run okCfg start (dcapHistory.take 3))
      (.ext (.signed bob) (.registerSgxEnclave (quote 0 alice.val) none (.dcap true))) e ∧
    LastProxiedRenewal okCfg (accepted okCfg start (dcapHistory ++ [.newBlock 172800000])) proxiedAddress
      (run okCfg start (dcapHistory.take 3)) (.ext (.signed bob) (.registerSgxEnclave (quote 0 alice.val) none (.dcap true))) ∧
    (run okCfg start (dcapHistory ++ [.newBlock 172800000])).now ≤ (run okCfg start (dcapHistory.take 3)).now + okCfg.maxRenewal := by
  obtain ⟨s', hx⟩ : ∃ s', exec okCfg (run okCfg start (dcapHistory.take 3))
      (.ext (.signed bob) (.registerSgxEnclave (quote 0 alice.val) none (.dcap true))) = .ok s' :=
    ⟨_, exec_ok_of_isOk (by decide +kernel)⟩
  have hrun : run okCfg start dcapHistory = s' := by
    have h2 := run_snoc okCfg start (dcapHistory.take 3) (.ext (.signed bob) (.registerSgxEnclave (quote 0 alice.val) none (.dcap true)))
    rw [step_of_ok hx] at h2
    exact h2
  have hr : ∃ e, RegistersProxied okCfg proxiedAddress (run okCfg start (dcapHistory.take 3))
      (.ext (.signed bob) (.registerSgxEnclave (quote 0 alice.val) none (.dcap true))) e := by
    rcases proxied_effect hx proxiedAddress with h | ⟨proof, url, m, e, h1, h2, _, _, _, h3, _, h4, h5, h6, _⟩ | ⟨b, e, h, _⟩
    · have h1 : ((run okCfg start dcapHistory).tx.proxied proxiedAddress).isSome = true := by decide +kernel
      have h2 : ((run okCfg start (dcapHistory.take 3)).tx.proxied proxiedAddress).isSome = false := by decide +kernel
      rw [← h, ← hrun, h1] at h2
      simp at h2
    · simp only [Op.ext.injEq, Call.registerSgxEnclave.injEq] at h1
      obtain ⟨_, h7, h8, h9⟩ := h1
      subst h7 h8 h9
      exact ⟨e, _, _, _, rfl, rfl, h2, h3, h5, h6⟩
    · simp at h
  obtain ⟨e, he⟩ := hr
  refine ⟨e, he, ⟨accepted okCfg start (dcapHistory.take 3), accepted okCfg s' [.newBlock 172800000],
    ?_, ⟨e, he⟩, ?_⟩, by decide +kernel⟩
  · have h2 := accepted_parts okCfg start (dcapHistory.take 3)
      (.ext (.signed bob) (.registerSgxEnclave (quote 0 alice.val) none (.dcap true)) :: [.newBlock 172800000])
    rw [accepted_cons_ok hx] at h2
    exact h2
  · rintro q hq e ⟨_, _, _, h, _⟩
    have : q.2 ∈ [Op.newBlock 172800000] := accepted_mem hq
    rw [h] at this
    simp at this

/-! ### C167 Renewing never shortens a registration -/

/-- The full claim. It is false for the code (see `C167_refuted`). -/
def C167_Full : Prop :=
  ∀ (c : Cfg) (s0 s' : Chain) (ops : List Op) (a : AccountId) (proof : Bytes) (url : Option Bytes) (m : SgxAttestationMethod)
    (e e' : SgxEnclave), NoEnclaves s0 → (run c s0 ops).tx.sovereign a = some e →
    exec c (run c s0 ops) (.ext (.signed a) (.registerSgxEnclave proof url m)) = .ok s' → s'.tx.sovereign a = some e' →
    e.timestamp ≤ e'.timestamp

/-- A registration by a quote counts from the current time, one by a report from the time in the report. -/
theorem C167_refuted : ¬ C167_Full := by
  intro h
  have h1 : ((run okCfg start dcapHistory).tx.sovereign alice).map (·.timestamp) = some 5000 := by decide +kernel
  have h2 : ((step okCfg (run okCfg start dcapHistory) (.ext (.signed alice) (.registerSgxEnclave iasProof none .ias))).tx.sovereign
    alice).map (·.timestamp) = some 4000 := by decide +kernel
  obtain ⟨e, h3, h4⟩ := Option.map_eq_some_iff.mp h1
  obtain ⟨e', h5, h6⟩ := Option.map_eq_some_iff.mp h2
  have := h okCfg start _ dcapHistory alice iasProof none .ias e e' ⟨fun _ => rfl, fun _ => rfl⟩ h3
    (exec_ok_of_isOk (by decide +kernel)) h5
  omega

/-- The entry after a renewal. -/
theorem renewed {c : Cfg} {s s' : Chain} {a : AccountId} {proof : Bytes} {url : Option Bytes} {m : SgxAttestationMethod}
    (hm : m.sovereign = true) (h : exec c s (.ext (.signed a) (.registerSgxEnclave proof url m)) = .ok s') :
    ∃ e, s'.tx.sovereign a = some e ∧ e.method = m ∧ Attested c s a proof e := by
  rcases attests_effect h a with ⟨hop, _⟩ | ⟨_, proof', url', m', e, h1, h2, _, h3, h4⟩
  · simp [Op.attests, hm] at hop
  · simp only [Op.ext.injEq, Call.registerSgxEnclave.injEq, true_and] at h1
    obtain ⟨rfl, rfl, rfl⟩ := h1
    exact ⟨e, h4, h2, h3⟩

/-- C167, partial: a renewal by a quote, or without attestation, counts from now, so it never shortens a registration; a
renewal by a report shortens it by less than a day.
Missing: a report that is older than the last attestation is accepted, and the registration ends earlier then. -/
theorem C167_less_than_a_day_partial (c : Cfg) (s0 s' : Chain) (ops : List Op) (a : AccountId) (proof : Bytes)
    (url : Option Bytes) (m : SgxAttestationMethod) (e : SgxEnclave) (h0 : NoEnclaves s0) (hm : m.sovereign = true)
    (he : (run c s0 ops).tx.sovereign a = some e)
    (h : exec c (run c s0 ops) (.ext (.signed a) (.registerSgxEnclave proof url m)) = .ok s') :
    ∃ e', s'.tx.sovereign a = some e' ∧ (m ≠ .ias → e.timestamp ≤ e'.timestamp ∧ e'.timestamp = (run c s0 ops).now) ∧
      (m = .ias → e.timestamp < e'.timestamp + c.momentsPerDay) := by
  have hle := ((C26_entries_bounded c s0 ops h0).1 a e he).2
  obtain ⟨e', h1, h2, h3⟩ := renewed hm h
  refine ⟨e', h1, fun hn => ?_, fun hi => ?_⟩
  · have ht : AttestedAt c (run c s0 ops) proof e'.method (run c s0 ops).now := by
      rw [h2]
      cases m with
      | ias => exact absurd rfl hn
      | dcap p => rfl
      | skip p => rfl
    have := timestamp_of_attested h3 ht
    omega
  · subst hi
    simp only [Attested, h2] at h3
    obtain ⟨r, _, ⟨_, _, _, h4, _⟩, _, _, h5⟩ := h3
    omega

/-- C167, exactly: a renewal shortens a registration if and only if it is made with a report whose time lies before that of
the last attestation. -/
theorem C167_sharp (c : Cfg) (s0 s' : Chain) (ops : List Op) (a : AccountId) (proof : Bytes)
    (url : Option Bytes) (m : SgxAttestationMethod) (e : SgxEnclave) (h0 : NoEnclaves s0) (hm : m.sovereign = true)
    (he : (run c s0 ops).tx.sovereign a = some e)
    (h : exec c (run c s0 ops) (.ext (.signed a) (.registerSgxEnclave proof url m)) = .ok s') :
    ∃ e', s'.tx.sovereign a = some e' ∧
      (e'.timestamp < e.timestamp ↔ m = .ias ∧ ∃ r, AuthenticIas c.ext proof r ∧ r.timestamp < e.timestamp) := by
  obtain ⟨e', h1, h2, _⟩ := C167_less_than_a_day_partial c s0 s' ops a proof url m e h0 hm he h
  obtain ⟨e1, h3, h4, h5⟩ := renewed hm h
  rw [h1] at h3
  obtain rfl := Option.some.inj h3
  refine ⟨e', h1, fun hlt => ?_, ?_⟩
  · by_cases hi : m = .ias
    · refine ⟨hi, ?_⟩
      subst hi
      simp only [Attested, h4] at h5
      obtain ⟨r, h6, ⟨_, _, _, h7, _⟩, _⟩ := h5
      exact ⟨r, h6, by omega⟩
    · have := (h2 hi).1
      omega
  · rintro ⟨rfl, r, h6, h7⟩
    have := timestamp_of_attested (t := r.timestamp) h5 (by rw [h4]; exact ⟨r, h6, rfl⟩)
    omega

/-- Both ways of renewal after a registration by a quote. -/
example : NoEnclaves start ∧ ((run okCfg start dcapHistory).tx.sovereign alice).map (·.timestamp) = some 5000 ∧
    (exec okCfg (run okCfg start dcapHistory) (.ext (.signed alice) (.registerSgxEnclave iasProof none .ias))).isOk = true ∧
    (exec okCfg (run okCfg start dcapHistory)
      (.ext (.signed alice) (.registerSgxEnclave (quote 0 alice.val) none (.dcap false)))).isOk = true :=
  ⟨⟨fun _ => rfl, fun _ => rfl⟩, by decide +kernel, by decide +kernel, by decide +kernel⟩

/-! ### C168 The first enclave of a shard can always go on -/

/-- The first signer of a shard stays the first one, unless root purges it. -/
theorem first_kept {c : Cfg} {s s' : Chain} {op : Op} (hs : StatusOk s) (h : exec c s op = .ok s') {shard : ShardId}
    {a : AccountId} (hn : op ≠ .ext .root (.purgeEnclave shard a))
    (h1 : (statusOf s shard).head?.map (·.signer) = some a) : (statusOf s' shard).head?.map (·.signer) = some a := by
  obtain ⟨_, hnd, _⟩ := hs shard
  rcases status_effect h shard with h2 | ⟨b, k, e, rfl, _, h2, _⟩ | ⟨b, l, rfl, h2, h3⟩
  · unfold statusOf at *; rw [h2]; exact h1
  · have h4 : statusOf s' shard = touchList (statusOf s shard) ⟨b, e.mrEnclave, s.block⟩ := by
      unfold statusOf at *; rw [h2]; rfl
    rw [← List.head?_map] at h1
    rw [← List.head?_map, h4, touchList_place hnd]
    split
    · exact h1
    · cases hl : (statusOf s shard).map (·.signer) with
      | nil => rw [hl] at h1; simp at h1
      | cons x r => rw [hl] at h1; simpa using h1
  · have hb : b ≠ a := by rintro rfl; exact hn rfl
    unfold statusOf at *
    rw [h2] at h1
    rw [h3]
    simp only [Option.getD_some] at h1 ⊢
    cases l with
    | nil => simp at h1
    | cons i r =>
      simp only [List.head?_cons, Option.map_some, Option.some.injEq] at h1
      rw [List.filter_cons_of_pos (by simp [h1, Ne.symm hb])]
      simp [h1]

/-- C168: let account `a` be the first signer of a shard after some history, and let anything happen after that, except
that root purges `a` from the shard. If the last attestation of `a` is not older than the renewal period and is about the
code that is in effect for the shard, then `a` is still the first signer and can finalise any block that is newer than the
latest, with the latest as its ancestor. The hypotheses are met by the example below. -/
theorem C168_first_goes_on (c : Cfg) (s0 s : Chain) (ops more : List Op) (shard : ShardId) (a : AccountId) (proof : Bytes)
    (m : SgxAttestationMethod) (t : Nat) (cand : Confirmation) (h0 : FreshBridge s0)
    (hfirst : (statusOf (run c s0 ops) shard).head?.map (·.signer) = some a)
    (hpurge : ∀ op ∈ more, op ≠ .ext .root (.purgeEnclave shard a))
    (hlast : LastRenewal (accepted c s0 (ops ++ more)) a s proof m) (ht : AttestedAt c s proof m t)
    (hnow : (run c s0 (ops ++ more)).now ≤ t + c.maxRenewal)
    (hcode : ∀ e, e.method = m → Attested c s a proof e →
      e.mrEnclave = fingerprintInEffect (run c s0 (ops ++ more)) shard (run c s0 (ops ++ more)).block)
    (hnew : ∀ k, (run c s0 (ops ++ more)).sc.latest shard = some k → k.number < cand.number) :
    (statusOf (run c s0 (ops ++ more)) shard).head?.map (·.signer) = some a ∧
    Finalizes c (run c s0 (ops ++ more)) (.ext (.signed a) (.confirmImportedSidechainBlock shard
      ((run c s0 (ops ++ more)).sc.latest shard) cand)) shard cand := by
  obtain ⟨e, h1, h2, _, h3, _⟩ := C166_in_time c s0 s (ops ++ more) a proof m t hlast ht hnow
  have hf : (statusOf (run c s0 (ops ++ more)) shard).head?.map (·.signer) = some a := by
    rw [run_append]
    refine (run_invariant' (c := c) (Q := fun op => op ≠ .ext .root (.purgeEnclave shard a))
      (P := fun s => StatusOk s ∧ (statusOf s shard).head?.map (·.signer) = some a) ?_
      ⟨statusOk_run (statusOk_fresh h0) ops, hfirst⟩ more hpurge).2
    rintro s s' op hq ⟨i1, i2⟩ hx
    exact ⟨statusOk_exec i1 hx, first_kept i1 hx hq i2⟩
  exact ⟨hf, C41_primary_partial c s0 (ops ++ more) shard a cand h0 ⟨e, h1, hcode e h2 h3⟩ (.inr hf) hnew⟩

/-- Alice has finalised a block of shard 7. Carol takes part, root purges Carol, and somebody tries to remove Alice's
enclave, which is renewed in the meantime. -/
def turbulence : List Op :=
  [imported carol (some ⟨5, hash1⟩) 6 hash2, .newBlock 100000000, .ext .root (.purgeEnclave shard7 carol)] ++
  enroll alice 7 :: [.newBlock 100000000, .ext (.signed bob) (.unregisterSovereignEnclave alice)]

example :
    let ops := [enroll alice 7, enroll carol 7, imported alice none 5 hash1]
    let s := run okCfg start (ops ++ turbulence.take 3)
    FreshBridge start ∧ (statusOf (run okCfg start ops) shard7).head?.map (·.signer) = some alice ∧
    (∀ op ∈ turbulence, op ≠ .ext .root (.purgeEnclave shard7 alice)) ∧
    LastRenewal (accepted okCfg start (ops ++ turbulence)) alice s (bytes 32 7) (.skip false) ∧
    AttestedAt okCfg s (bytes 32 7) (.skip false) s.now ∧
    (run okCfg start (ops ++ turbulence)).now ≤ s.now + okCfg.maxRenewal ∧
    (∀ e, e.method = .skip false → Attested okCfg s alice (bytes 32 7) e →
      e.mrEnclave = fingerprintInEffect (run okCfg start (ops ++ turbulence)) shard7 (run okCfg start (ops ++ turbulence)).block) ∧
    (run okCfg start (ops ++ turbulence)).sc.latest shard7 = some ⟨5, hash1⟩ := by
  refine ⟨⟨fun _ => rfl, fun _ => rfl, fun _ => rfl⟩, by decide +kernel, by decide +kernel, ?_, rfl, by decide +kernel, ?_,
    by decide +kernel⟩
  · obtain ⟨s', h⟩ : ∃ s', exec okCfg (run okCfg start ([enroll alice 7, enroll carol 7, imported alice none 5 hash1] ++
        turbulence.take 3)) (enroll alice 7) = .ok s' := ⟨_, exec_ok_of_isOk (by decide +kernel)⟩
    refine ⟨accepted okCfg start ([enroll alice 7, enroll carol 7, imported alice none 5 hash1] ++ turbulence.take 3), none,
      accepted okCfg s' (turbulence.drop 4), ?_, rfl, fun p hp => ?_⟩
    · have h2 := accepted_parts okCfg start ([enroll alice 7, enroll carol 7, imported alice none 5 hash1] ++ turbulence.take 3)
        (turbulence.drop 3)
      rw [List.append_assoc, List.take_append_drop] at h2
      rw [h2]
      exact congrArg _ (accepted_cons_ok h)
    · have h3 : p.2 ∈ [Op.newBlock 100000000, .ext (.signed bob) (.unregisterSovereignEnclave alice)] := accepted_mem hp
      simp only [List.mem_cons, List.not_mem_nil, or_false] at h3
      rcases h3 with h3 | h3 <;> rw [h3] <;> rfl
  · intro e he h
    simp only [Attested, he] at h
    refine Subtype.ext ((h.2.2.1 (by decide)).trans ?_)
    decide +kernel

/-! ### C169 A listed enclave can always act for its shard -/

/-- Whoever is listed in the status of a shard stays listed, unless root purges it. -/
theorem listed_kept {c : Cfg} {s s' : Chain} {op : Op} (hs : StatusOk s) (h : exec c s op = .ok s') {shard : ShardId}
    {a : AccountId} (hn : op ≠ .ext .root (.purgeEnclave shard a))
    (h1 : a ∈ (statusOf s shard).map (·.signer)) : a ∈ (statusOf s' shard).map (·.signer) := by
  obtain ⟨_, hnd, _⟩ := hs shard
  rcases status_effect h shard with h2 | ⟨b, k, e, rfl, _, h2, _⟩ | ⟨b, l, rfl, h2, h3⟩
  · unfold statusOf at *; rw [h2]; exact h1
  · have h4 : statusOf s' shard = touchList (statusOf s shard) ⟨b, e.mrEnclave, s.block⟩ := by
      unfold statusOf at *; rw [h2]; rfl
    rw [h4, touchList_place hnd]
    split
    · exact h1
    · exact List.mem_append_left _ h1
  · unfold statusOf at *
    rw [h2] at h1
    rw [h3]
    simp only [Option.getD_some] at h1 ⊢
    obtain ⟨i, hi, rfl⟩ := List.mem_map.mp h1
    refine List.mem_map.mpr ⟨i, List.mem_filter.mpr ⟨hi, ?_⟩, rfl⟩
    simp only [decide_not, Bool.not_eq_true', decide_eq_false_iff_not]
    rintro rfl
    exact hn rfl

/-- C169: let account `a` be listed in the status of a shard after some history, and let anything happen after that, except
that root purges `a` from the shard. If the last attestation of `a` is not older than the renewal period and is about the
code that is in effect for the shard, then `a` is still listed and can confirm any parentchain block, set any
configuration of the shard, and pay out any amount that the vault can pay, by any call that was not executed before. The
hypotheses are met by the example below. -/
theorem C169_listed_goes_on (c : Cfg) (s0 s : Chain) (ops more : List Op) (shard : ShardId) (a : AccountId) (proof : Bytes)
    (m : SgxAttestationMethod) (t : Nat) (h0 : FreshBridge s0)
    (hlisted : a ∈ (statusOf (run c s0 ops) shard).map (·.signer))
    (hpurge : ∀ op ∈ more, op ≠ .ext .root (.purgeEnclave shard a))
    (hlast : LastRenewal (accepted c s0 (ops ++ more)) a s proof m) (ht : AttestedAt c s proof m t)
    (hnow : (run c s0 (ops ++ more)).now ≤ t + c.maxRenewal)
    (hcode : ∀ e, e.method = m → Attested c s a proof e →
      e.mrEnclave = fingerprintInEffect (run c s0 (ops ++ more)) shard (run c s0 (ops ++ more)).block) :
    a ∈ (statusOf (run c s0 (ops ++ more)) shard).map (·.signer) ∧
    (∀ hash n root, ∃ s', exec c (run c s0 (ops ++ more))
      (.ext (.signed a) (.confirmProcessedParentchainBlock shard hash n root)) = .ok s') ∧
    (∀ cfg delay, ∃ s', exec c (run c s0 (ops ++ more)) (.ext (.signed a) (.updateShardConfig shard cfg delay)) = .ok s') ∧
    (∀ ben amount call, (run c s0 (ops ++ more)).br.executed call = none → CanPay c (run c s0 (ops ++ more)) shard ben amount →
      ∃ s', exec c (run c s0 (ops ++ more)) (.ext (.signed a) (.unshieldFunds shard ben amount call)) = .ok s') := by
  obtain ⟨e, h1, h2, _, h3, _⟩ := C166_in_time c s0 s (ops ++ more) a proof m t hlast ht hnow
  have hok : StatusOk (run c s0 (ops ++ more)) := statusOk_run (statusOk_fresh h0) _
  have hl : a ∈ (statusOf (run c s0 (ops ++ more)) shard).map (·.signer) := by
    rw [run_append]
    refine (run_invariant' (c := c) (Q := fun op => op ≠ .ext .root (.purgeEnclave shard a))
      (P := fun s => StatusOk s ∧ a ∈ (statusOf s shard).map (·.signer)) ?_
      ⟨statusOk_run (statusOk_fresh h0) ops, hlisted⟩ more hpurge).2
    rintro s s' op hq ⟨i1, i2⟩ hx
    exact ⟨statusOk_exec i1 hx, listed_kept i1 hx hq i2⟩
  have hcode' := hcode e h2 h3
  have hact : MayAct (run c s0 (ops ++ more)) (.signed a) shard a := ⟨rfl, ⟨e, h1, hcode'⟩, .inl hl⟩
  refine ⟨hl, fun hash n root => (accepts_iff hok _ _).mpr ⟨a, hact⟩, fun cfg delay => (accepts_iff hok _ _).mpr
    (.inr ⟨a, e, rfl, h1, .inl hl, fun old ho => ?_⟩), fun ben amount call hc hp => (accepts_iff hok _ _).mpr ⟨a, hact, ?_⟩⟩
  · rw [hcode']
    unfold fingerprintInEffect
    rw [ho]
  · rw [hc]
    exact hp

/-- Carol comes first and Alice second in the status of shard 7, to which Bob shields money. -/
def secondListed : List Op :=
  [enroll alice 7, enroll carol 7, imported carol none 5 hash1,
    .ext (.signed alice) (.confirmProcessedParentchainBlock shard7 hash1 5 hash2), .ext (.signed bob) (.shieldFunds shard7 [1, 2] 300)]

example :
    let s := run okCfg start (secondListed ++ turbulence.take 3)
    FreshBridge start ∧ (statusOf (run okCfg start secondListed) shard7).map (·.signer) = [carol, alice] ∧
    (∀ op ∈ turbulence, op ≠ .ext .root (.purgeEnclave shard7 alice)) ∧
    LastRenewal (accepted okCfg start (secondListed ++ turbulence)) alice s (bytes 32 7) (.skip false) ∧
    AttestedAt okCfg s (bytes 32 7) (.skip false) s.now ∧
    (run okCfg start (secondListed ++ turbulence)).now ≤ s.now + okCfg.maxRenewal ∧
    (∀ e, e.method = .skip false → Attested okCfg s alice (bytes 32 7) e →
      e.mrEnclave = fingerprintInEffect (run okCfg start (secondListed ++ turbulence)) shard7
        (run okCfg start (secondListed ++ turbulence)).block) ∧
    (run okCfg start (secondListed ++ turbulence)).br.executed hash1 = none ∧
    CanPay okCfg (run okCfg start (secondListed ++ turbulence)) shard7 bob 200 := by
  refine ⟨⟨fun _ => rfl, fun _ => rfl, fun _ => rfl⟩, by decide +kernel, by decide +kernel, ?_, rfl, by decide +kernel, ?_,
    by decide +kernel, .inr (.inr ⟨by decide +kernel, ?_, by decide +kernel, by decide +kernel⟩)⟩
  · obtain ⟨s', h⟩ : ∃ s', exec okCfg (run okCfg start (secondListed ++ turbulence.take 3)) (enroll alice 7) = .ok s' :=
      ⟨_, exec_ok_of_isOk (by decide +kernel)⟩
    refine ⟨accepted okCfg start (secondListed ++ turbulence.take 3), none, accepted okCfg s' (turbulence.drop 4), ?_, rfl,
      fun p hp => ?_⟩
    · have h2 := accepted_parts okCfg start (secondListed ++ turbulence.take 3) (turbulence.drop 3)
      rw [List.append_assoc, List.take_append_drop] at h2
      rw [h2]
      exact congrArg _ (accepted_cons_ok h)
    · have h3 : p.2 ∈ [Op.newBlock 100000000, .ext (.signed bob) (.unregisterSovereignEnclave alice)] := accepted_mem hp
      simp only [List.mem_cons, List.not_mem_nil, or_false] at h3
      rcases h3 with h3 | h3 <;> rw [h3] <;> rfl
  · intro e he h
    simp only [Attested, he] at h
    refine Subtype.ext ((h.2.2.1 (by decide)).trans ?_)
    decide +kernel
  · intro id h
    refine absurd ?_ h
    cases id <;> decide +kernel

end Verif
