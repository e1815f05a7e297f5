import Verif.Props.Lifecycle
import Verif.Spec.Trust

/-!
# Why enclaves are trusted: C130
-/

namespace Verif

open Demo EnclaveBridge

/-! ### C130 Whatever an enclave does goes back to Intel or to root -/

/-- What an accepted operation means for the enclave of an account. -/
theorem concerns_effect {c : Cfg} {s s' : Chain} {op : Op} (h : exec c s op = .ok s') (a : AccountId) :
    (op.concernsEnclave a = false ∧ s'.tx.sovereign a = s.tx.sovereign a) ∨
    (∃ proof url m e, op = .ext (.signed a) (.registerSgxEnclave proof url m) ∧ m.sovereign = true ∧ e.method = m ∧
      Attested c s a proof e ∧ e.reportData.val.take 32 = a.val ∧ s'.tx.sovereign a = some e) ∨
    s'.tx.sovereign a = none := by
  cases hc : op.concernsEnclave a with
  | false =>
    rcases sovereign_effect h a with h1 | ⟨proof, url, m, e, rfl, hm, _, _, _, _, _, hp, _, _⟩ | ⟨b, e, rfl, _⟩
    · exact .inl ⟨rfl, h1⟩
    · exfalso
      subst hm
      rcases hm : e.method with p | _ | p <;> simp [Op.concernsEnclave, SgxAttestationMethod.sovereign, SgxEnclave.proxied, hm] at hc hp
      all_goals subst hc; simp at hp
    · simp [Op.concernsEnclave] at hc
  | true =>
    right
    cases op with
    | ext o k =>
      cases k with
      | registerSgxEnclave proof url m =>
        simp only [Op.concernsEnclave, Bool.and_eq_true, decide_eq_true_eq] at hc
        obtain ⟨rfl, hm⟩ := hc
        obtain ⟨b, e, hb, _, _, h3, _, h5, _, (⟨_, h8, rfl⟩ | ⟨h7, rfl⟩)⟩ := register_iff.mp h
        · cases hb
          exact .inl ⟨proof, url, m, e, rfl, hm, h3, h5, h8, by simp⟩
        · exfalso
          subst h3
          rcases hx : e.method with p | _ | p <;> simp [SgxAttestationMethod.sovereign, SgxEnclave.proxied, hx] at hm h7
          all_goals subst hm; simp at h7
      | unregisterSovereignEnclave x =>
        simp only [Op.concernsEnclave, decide_eq_true_eq] at hc
        subst hc
        obtain ⟨b, e, rfl, _, _, rfl⟩ := Teerex.unregisterSovereignEnclave_ok.mp h
        right; simp
      | _ => simp [Op.concernsEnclave] at hc
    | _ => simp [Op.concernsEnclave] at hc

/-- The last registration stays the last one over operations that do not concern the enclave. -/
theorem LastRegistration.snoc {acc before : List (Chain × Op)} {a : AccountId} {s t : Chain} {proof : Bytes}
    {m : SgxAttestationMethod} {op : Op} (h : LastRegistration acc a before s proof m) (hop : op.concernsEnclave a = false) :
    LastRegistration (acc ++ [(t, op)]) a before s proof m := by
  obtain ⟨url, after, rfl, hm, ha⟩ := h
  refine ⟨url, after ++ [(t, op)], by simp, hm, fun p hp => ?_⟩
  rcases List.mem_append.mp hp with hp | hp
  · exact ha p hp
  · rw [List.mem_singleton.mp hp]; exact hop

theorem Trusted.snoc {c : Cfg} {s0 t : Chain} {acc : List (Chain × Op)} {a : AccountId} {fp : Fingerprint} {op : Op}
    (h : Trusted c s0 acc a fp) (hop : op.concernsEnclave a = false) : Trusted c s0 (acc ++ [(t, op)]) a fp := by
  cases h with
  | report b s p r l h1 h2 h3 h4 => exact .report b s p r (l.snoc hop) h1 h2 h3 h4
  | quote b s p q f t r i st l h1 h2 h3 h4 h5 h6 => exact .quote b s p q f t r i st (l.snoc hop) h1 h2 h3 h4 h5 h6
  | waived b s p l h1 h2 => exact .waived b s p (l.snoc hop) h1 h2

/-- There is no enclave and no collateral. -/
def FreshTeerex (s0 : Chain) : Prop := NoEnclaves s0 ∧ (∀ f, s0.tx.tcb f = none) ∧ s0.tx.qe.tcb = []

/-- Entries, collateral and flags all go back to accepted operations. -/
theorem trusted_run (c : Cfg) (s0 : Chain) (ops : List Op) (h0 : FreshTeerex s0) :
    (∀ a e, (run c s0 ops).tx.sovereign a = some e → Trusted c s0 (accepted c s0 ops) a e.mrEnclave) ∧
    ((run c s0 ops).tx.qe.tcb = [] ∨ IdentityFromIntel c (accepted c s0 ops) (run c s0 ops).tx.qe) ∧
    (∀ f i, (run c s0 ops).tx.tcb f = some i → TcbInfoFromIntel c (accepted c s0 ops) f i) ∧
    ((run c s0 ops).tx.allowSkip = true → Waived s0 (accepted c s0 ops)) := by
  refine history_induction (c := c) (s0 := s0) (P := fun s acc =>
    (∀ a e, s.tx.sovereign a = some e → Trusted c s0 acc a e.mrEnclave) ∧
    (s.tx.qe.tcb = [] ∨ IdentityFromIntel c acc s.tx.qe) ∧
    (∀ f i, s.tx.tcb f = some i → TcbInfoFromIntel c acc f i) ∧
    (s.tx.allowSkip = true → Waived s0 acc)) ?_ ?_ ops
  · obtain ⟨⟨h1, _⟩, h2, h3⟩ := h0
    exact ⟨fun a e h => by rw [h1] at h; simp at h, .inl h3, fun f i h => by rw [h2] at h; simp at h, .inl⟩
  · rintro s s' op acc ⟨h1, h2, h3, h4⟩ hx
    refine ⟨fun a e he => ?_, ?_, fun f i hi => ?_, fun hsk => ?_⟩
    · rcases concerns_effect hx a with ⟨hc, h⟩ | ⟨proof, url, m, e', rfl, hm, hem, hat, hown, h⟩ | h
      · rw [h] at he
        exact (h1 a e he).snoc hc
      · rw [h] at he
        obtain rfl := Option.some.inj he
        have hlast : LastRegistration (acc ++ [(s, .ext (.signed a) (.registerSgxEnclave proof url m))]) a acc s proof m :=
          ⟨url, [], rfl, hm, by simp⟩
        rcases hmm : m with p | _ | p
        · rw [hmm] at hm hem hlast
          cases p
          · simp only [Attested, hem] at hat
            obtain ⟨a1, _, a3, _⟩ := hat
            exact .waived acc s proof hlast (h4 a1) a3
          · simp [SgxAttestationMethod.sovereign] at hm
        · rw [hmm] at hem hlast
          simp only [Attested, hem] at hat
          obtain ⟨r, a1, ⟨a2, a3, _⟩, _, a5, a6⟩ := hat
          exact .report acc s proof r hlast a1 ⟨a5, a6⟩ (a2 ▸ hown) a3.symm
        · rw [hmm] at hm hem hlast
          cases p
          · simp only [Attested, hem] at hat
            obtain ⟨f, t, r, info, a1, ⟨a2, a3, _⟩, a4, a5⟩ := hat
            have hid : IdentityFromIntel c acc s.tx.qe := by
              rcases h2 with h | h
              · obtain ⟨v, hv, _⟩ := a1.qeMatches.svn
                rw [h] at hv; simp at hv
              · exact h
            exact .quote acc s proof s.tx.qe f t r info _ hlast a1 hid (h3 f info a4) a5 (a2 ▸ hown) a3.symm
          · simp [SgxAttestationMethod.sovereign] at hm
      · rw [h] at he; simp at he
    · rcases (collateral_effect hx).1 with h | ⟨b, d, g, ch, rfl, h⟩
      · rw [h]
        rcases h2 with h2 | ⟨s1, b, d, g, ch, hm, hs⟩
        · exact .inl h2
        · exact .inr ⟨s1, b, d, g, ch, List.mem_append_left _ hm, hs⟩
      · exact .inr ⟨s, b, d, g, ch, by simp, h⟩
    · rcases (collateral_effect hx).2 f with h | ⟨b, d, g, ch, i', rfl, h, hs⟩
      · obtain ⟨s1, b, d, g, ch, hm, hs⟩ := h3 f i (h ▸ hi)
        exact ⟨s1, b, d, g, ch, List.mem_append_left _ hm, hs⟩
      · rw [h] at hi
        obtain rfl := Option.some.inj hi
        exact ⟨s, b, d, g, ch, by simp, hs⟩
    · rcases flags_effect hx with ⟨h, _⟩ | rfl
      · rcases h4 (h ▸ hsk) with h | ⟨s1, db, hm⟩
        · exact .inl h
        · exact .inr ⟨s1, db, List.mem_append_left _ hm⟩
      · exact .inr ⟨s, _, List.mem_append_right _ (by rw [hsk]; exact List.mem_singleton.mpr rfl)⟩

/-- C130: from a state without enclaves and collateral, whenever a call that only enclaves may make succeeds after any
history, its signer is trusted for a measurement that the call demands: the last operation that concerned its enclave was
a registration, with a report or a quote that goes back to Intel, through collateral registered before it, or without
evidence after root allowed that. The hypotheses are met by the example below. -/
theorem C130_calls (c : Cfg) (s0 s' : Chain) (ops : List Op) (a : AccountId) (k : Call) (h0 : FreshTeerex s0)
    (hk : k.enclaveOnly = true) (h : exec c (run c s0 ops) (.ext (.signed a) k) = .ok s') :
    ∃ fp, Trusted c s0 (accepted c s0 ops) a fp ∧ Demands (run c s0 ops) fp k := by
  have key := (trusted_run c s0 ops h0).1 a
  cases k with
  | confirmProcessedParentchainBlock =>
    obtain ⟨b, e, l, ⟨hb, h1, h2, _⟩, _⟩ := confirmProcessed_ok.mp h; cases hb; exact ⟨_, key e h1, h2⟩
  | unshieldFunds => obtain ⟨b, e, l, ⟨hb, h1, h2, _⟩, _⟩ := unshieldFunds_ok.mp h; cases hb; exact ⟨_, key e h1, h2⟩
  | publishHash => obtain ⟨b, e, l, hb, h1, _⟩ := publishHash_ok.mp h; cases hb; exact ⟨_, key e h1, trivial⟩
  | updateShardConfig shard =>
    rcases updateShardConfig_ok.mp h with ⟨hb, _⟩ | ⟨b, e, l, hb, h1, h2, _⟩
    · cases hb
    · cases hb
      refine ⟨_, key e h1, fun hne => ?_⟩
      unfold fingerprintInEffect
      cases hc : configInEffect (run c s0 ops) shard (run c s0 ops).block with
      | some old => exact h2 old hc
      | none =>
        exfalso
        revert hc
        unfold configInEffect
        cases hcc : (run c s0 ops).br.config shard with
        | none => exact absurd hcc hne
        | some u => simp
  | confirmImportedSidechainBlock =>
    obtain ⟨b, e, l, _, ⟨hb, h1, h2, _⟩, _⟩ := Sidechain.confirmImported_ok.mp h; cases hb; exact ⟨_, key e h1, h2⟩
  | updateOracle => obtain ⟨b, e, hb, h1, h2, _⟩ := Teeracle.updateOracle_ok.mp h; cases hb; exact ⟨_, key e h1, h2⟩
  | updateExchangeRate =>
    obtain ⟨b, e, hb, h1, _, h2, _⟩ := Teeracle.updateExchangeRate_ok.mp h; cases hb; exact ⟨_, key e h1, h2⟩
  | _ => simp [Call.enclaveOnly] at hk

/-- C130, in terms of what an accepted operation changes. -/
theorem C130_effects (c : Cfg) (s0 s' : Chain) (ops : List Op) (op : Op) (h0 : FreshTeerex s0)
    (h : exec c (run c s0 ops) op = .ok s') :
    /- oracle data change by an update call, signed by a trusted enclave on the whitelist of the source -/
    (∀ x src, s'.orc.rates x src ≠ (run c s0 ops).orc.rates x src ∨ s'.orc.blobs x src ≠ (run c s0 ops).orc.blobs x src →
      ∃ a fp, ((∃ b, op = .ext (.signed a) (.updateOracle x src b)) ∨ ∃ v, op = .ext (.signed a) (.updateExchangeRate src x v)) ∧
        Trusted c s0 (accepted c s0 ops) a fp ∧ fp ∈ (run c s0 ops).orc.whitelist src) ∧
    /- a block of a sidechain is finalised by a call signed by a trusted enclave with the code in effect -/
    (∀ shard, s'.sc.latest shard ≠ (run c s0 ops).sc.latest shard →
      ∃ a anc cand, op = .ext (.signed a) (.confirmImportedSidechainBlock shard anc cand) ∧
        Trusted c s0 (accepted c s0 ops) a (fingerprintInEffect (run c s0 ops) shard (run c s0 ops).block)) ∧
    /- money leaves an account by its own call, by slashing, or by unshielding, signed by a trusted enclave with the code in effect -/
    (∀ x, s'.bal.free x < (run c s0 ops).bal.free x → (∃ k, op = .ext (.signed x) k) ∨ (∃ n, op = .slash x n) ∨
      ∃ a ben v hash, op = .ext (.signed a) (.unshieldFunds x ben v hash) ∧
        Trusted c s0 (accepted c s0 ops) a (fingerprintInEffect (run c s0 ops) x (run c s0 ops).block)) ∧
    /- the code of a shard, now or later, changes by an update, by root or a trusted enclave with the code in effect, if any -/
    (∀ shard n, (run c s0 ops).block ≤ n → configInEffect s' shard n ≠ configInEffect (run c s0 ops) shard n →
      (∃ cfg d, op = .ext .root (.updateShardConfig shard cfg d)) ∨
      ∃ a fp cfg d, op = .ext (.signed a) (.updateShardConfig shard cfg d) ∧ Trusted c s0 (accepted c s0 ops) a fp ∧
        ∀ old, configInEffect (run c s0 ops) shard (run c s0 ops).block = some old →
        fp = old.fingerprint) := by
  have key := (trusted_run c s0 ops h0).1
  refine ⟨fun x src hx => ?_, fun shard hx => ?_, fun x hx => ?_, fun shard n hn hx => ?_⟩
  · by_cases hp : Part.teeracle ∈ op.parts
    · cases op with
      | ext o k =>
        cases k with
        | updateOracle nm sr =>
          obtain ⟨b, e, rfl, h1, h2, _, _, _, rfl⟩ := Teeracle.updateOracle_ok.mp h
          by_cases hs : src = sr <;> by_cases hn : x = nm
          · subst hs hn; exact ⟨b, _, .inl ⟨_, rfl⟩, key b e h1, h2⟩
          · simp [hn] at hx
          · subst hn; simp [hs] at hx
          · simp [hn] at hx
        | updateExchangeRate sr pr =>
          obtain ⟨b, e, rfl, h1, _, h2, rfl⟩ := Teeracle.updateExchangeRate_ok.mp h
          by_cases hs : src = sr <;> by_cases hn : x = pr
          · subst hs hn; exact ⟨b, _, .inr ⟨_, rfl⟩, key b e h1, h2⟩
          · simp [hn] at hx
          · subst hn; simp [hs] at hx
          · simp [hn] at hx
        | addToWhitelist =>
          obtain ⟨_, _, _, _, rfl⟩ := Teeracle.addToWhitelist_ok.mp h
          simp at hx
        | removeFromWhitelist =>
          obtain ⟨_, _, rfl⟩ := Teeracle.removeFromWhitelist_ok.mp h
          simp at hx
        | claims k => cases k <;> simp [Op.parts, Call.parts] at hp
        | _ => simp [Op.parts, Call.parts] at hp
      | _ => simp [Op.parts] at hp
    · have := exec_frame h _ hp
      simp only [Part.Same] at this
      rw [this] at hx
      simp at hx
  · by_cases hp : Part.sidechain ∈ op.parts
    · cases op with
      | ext o k =>
        cases k with
        | confirmImportedSidechainBlock sh =>
          obtain ⟨b, e, l, _, ⟨rfl, h1, h2, _⟩, _, hh⟩ := Sidechain.confirmImported_ok.mp h
          by_cases hs : shard = sh
          · subst hs; refine ⟨b, _, _, rfl, ?_⟩; rw [← h2]; exact key b e h1
          · exfalso
            rcases hh with ⟨_, rfl⟩ | ⟨_, _, rfl⟩ <;> simp [hs] at hx
        | claims k => cases k <;> simp [Op.parts, Call.parts] at hp
        | _ => simp [Op.parts, Call.parts] at hp
      | _ => simp [Op.parts] at hp
    · have := exec_frame h _ hp
      simp only [Part.Same] at this
      rw [this] at hx
      simp at hx
  · rcases free_decrease h x hx with h | h | ⟨b, ben, amount, hash, rfl, ⟨e, he, hfp⟩, _⟩
    · exact .inl h
    · exact .inr (.inl h)
    · exact .inr (.inr ⟨b, ben, amount, hash, rfl, hfp ▸ key b e he⟩)
  · rcases inEffect_effect h shard with h | ⟨o, cfg, d, rfl, _, (rfl | ⟨b, e, rfl, he, hold⟩)⟩
    · exact absurd (h n hn) hx
    · exact .inl ⟨cfg, d, rfl⟩
    · exact .inr ⟨b, _, cfg, d, rfl, key b e he, hold⟩

example :
    let s0 := { start with tx := { start.tx with allowSkip := false } }
    let s := run okCfg s0 (dcapHistory ++ [.ext (.signed alice) (.updateShardConfig shard7 (config 7) 0),
      .mint shard7 500, .ext .root (.addToWhitelist [1] shard7)])
    FreshTeerex s0 ∧ (exec okCfg s (.ext (.signed alice) (.updateExchangeRate [1] [2] (some 5)))).isOk = true ∧
    (exec okCfg s (.ext (.signed alice) (.unshieldFunds shard7 bob 100 hash1))).isOk = true ∧
    (step okCfg s (.ext (.signed alice) (.unshieldFunds shard7 bob 100 hash1))).bal.free shard7 < s.bal.free shard7 ∧
    (exec okCfg s (.ext (.signed bob) (.unshieldFunds shard7 bob 100 hash1))).isOk = false :=
  ⟨⟨⟨fun _ => rfl, fun _ => rfl⟩, fun _ => rfl, rfl⟩, by decide +kernel, by decide +kernel, by decide +kernel, by decide +kernel⟩

end Verif
