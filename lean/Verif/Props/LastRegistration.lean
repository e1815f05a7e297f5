import Verif.Props.EnclaveInfo
import Verif.Props.Renewal
import Verif.Props.LastCollateral

/-!
# An entry of the registry is what was registered last: C164, continued
-/

namespace Verif

open Demo

/-- The time in an entry is the time of the attestation. -/
theorem attestedAt_of_attested {c : Cfg} {s : Chain} {a : AccountId} {proof : Bytes} {e : SgxEnclave}
    (h : Attested c s a proof e) : AttestedAt c s proof e.method e.timestamp := by
  cases hm : e.method with
  | ias =>
    simp only [Attested, AttestedAt, hm] at h ⊢
    obtain ⟨r, h1, ⟨_, _, _, h2, _⟩, _⟩ := h
    exact ⟨r, h1, h2.symm⟩
  | dcap p => exact timestamp_of_attested h (by rw [hm]; rfl)
  | skip p => exact timestamp_of_attested h (by rw [hm]; rfl)

/-- C164: what an enclave of the first registry tells (its URL, its attestation method, and what its attestation proved) is
what the last accepted registration of this account gave. -/
theorem C164_last_sovereign (c : Cfg) (s0 : Chain) (ops : List Op) (h0 : NoEnclaves s0) (a : AccountId) (e : SgxEnclave)
    (h : (run c s0 ops).tx.sovereign a = some e) :
    ∃ s proof url m, LastOf (fun op => op.attests a = true) (accepted c s0 ops) s
        (.ext (.signed a) (.registerSgxEnclave proof url m)) ∧
      e.instanceUrl = url ∧ e.method = m ∧ Attested c s a proof e ∧ AttestedAt c s proof m e.attestationTimestamp := by
  have key := history_induction (c := c) (s0 := s0) (P := fun st acc => ∀ e, st.tx.sovereign a = some e →
    ∃ s proof url m, LastOf (fun op => op.attests a = true) acc s (.ext (.signed a) (.registerSgxEnclave proof url m)) ∧
      e.url = url ∧ e.method = m ∧ Attested c s a proof e) ?_ ?_ ops e h
  · obtain ⟨s, proof, url, m, h1, h2, h3, h4⟩ := key
    refine ⟨s, proof, url, m, h1, h2, h3, h4, ?_⟩
    subst h3
    exact attestedAt_of_attested h4
  · intro e h; rw [h0.1 a] at h; cases h
  · intro s s' op acc ih hx e h
    rcases attests_effect hx a with ⟨hn, h1⟩ | ⟨hy, proof, url, m, e', rfl, h1, h2, h3, h4⟩
    · rcases h1 with h1 | ⟨_, _, _, h1⟩
      · obtain ⟨t, proof, url, m, h2, h3⟩ := ih e (h1 ▸ h)
        exact ⟨t, proof, url, m, LastOf.snoc.mpr (.inr ⟨by simp [hn], h2⟩), h3⟩
      · rw [h1] at h; cases h
    · rw [h4] at h
      obtain rfl := Option.some.inj h
      exact ⟨s, proof, url, m, LastOf.snoc.mpr (.inl ⟨hy, rfl, rfl⟩), h2, h1, h3⟩

example : NoEnclaves start ∧ ∃ e, (run okCfg start dcapHistory).tx.sovereign alice = some e :=
  ⟨⟨fun _ => rfl, fun _ => rfl⟩, Option.isSome_iff_exists.mp (by decide +kernel)⟩

/-- In a history where Alice registers twice, the URL is the one given last. -/
example : ((run okCfg start (dcapHistory ++
    [.ext (.signed alice) (.registerSgxEnclave (quote 0 alice.val) (some [105]) (.dcap false))])).tx.sovereign alice).map
      (·.instanceUrl) = some (some [105]) ∧
    ((run okCfg start dcapHistory).tx.sovereign alice).map (·.instanceUrl) = some (some [104]) := by decide +kernel

/-- A registration by proxy writes the entry of its address. -/
theorem proxied_registers {c : Cfg} {s s' : Chain} {op : Op} {p : EnclaveInstanceAddress} {e0 : SgxEnclave}
    (hx : exec c s op = .ok s') (he : RegistersProxied c p s op e0) :
    ∃ proof url m e, op = .ext (.signed p.registrar) (.registerSgxEnclave proof url m) ∧ e.url = url ∧ e.method = m ∧
      Attested c s p.registrar proof e ∧ s'.tx.proxied p = some e := by
  obtain ⟨proof, url, m, rfl, hm, hm0, hat0, hf0, hsg0⟩ := he
  obtain ⟨b, e, hb, _, _, h3, h4, h5, _, h6⟩ := register_iff.mp hx
  cases hb
  have hpx : e.proxied = true := by
    rw [← h3] at hm
    rcases hx : e.method with p | _ | p <;> rw [hx] at hm <;> simp [SgxAttestationMethod.sovereign] at hm <;>
      simp [SgxEnclave.proxied, hx, hm]
  rcases h6 with ⟨h6, _⟩ | ⟨_, rfl⟩
  · rw [h6] at hpx; simp at hpx
  · obtain ⟨h7, h8⟩ := attested_same (h3.trans hm0.symm) h5 hat0
    have hp : p = ⟨e.mrEnclave, p.registrar, .opaque (e.reportData.val ++ [0, 0])⟩ := by
      rw [h7, h8, ← hf0, ← hsg0]
    refine ⟨proof, url, m, e, rfl, h4, h3, h5, ?_⟩
    rw [← hp]
    simp

/-- C164: the same for the second registry: an enclave tells what the last accepted registration with its address gave. -/
theorem C164_last_proxied (c : Cfg) (s0 : Chain) (ops : List Op) (h0 : NoEnclaves s0) (p : EnclaveInstanceAddress)
    (e : SgxEnclave) (h : (run c s0 ops).tx.proxied p = some e) :
    ∃ s proof url m, LastProxiedRenewal c (accepted c s0 ops) p s (.ext (.signed p.registrar) (.registerSgxEnclave proof url m)) ∧
      e.instanceUrl = url ∧ e.method = m ∧ Attested c s p.registrar proof e ∧ e.attestationTimestamp = s.now := by
  have key := history_induction (c := c) (s0 := s0) (P := fun st acc => ∀ e, st.tx.proxied p = some e →
    ∃ s proof url m, LastProxiedRenewal c acc p s (.ext (.signed p.registrar) (.registerSgxEnclave proof url m)) ∧
      e.url = url ∧ e.method = m ∧ Attested c s p.registrar proof e) ?_ ?_ ops e h
  · obtain ⟨s, proof, url, m, h1, h2, h3, h4⟩ := key
    refine ⟨s, proof, url, m, h1, h2, h3, h4, timestamp_of_attested h4 ?_⟩
    obtain ⟨_, _, _, ⟨_, _, _, _, hop, hm, _⟩, _⟩ := h1
    cases hop
    rw [h3]
    rcases m with p | _ | p
    · rfl
    · simp [SgxAttestationMethod.sovereign] at hm
    · rfl
  · intro e h; rw [h0.2 p] at h; cases h
  · intro s s' op acc ih hx e h
    by_cases hr : ∃ e0, RegistersProxied c p s op e0
    · obtain ⟨proof, url, m, e', rfl, h1, h2, h3, h4⟩ := proxied_registers hx hr.choose_spec
      rw [h4] at h
      obtain rfl := Option.some.inj h
      exact ⟨s, proof, url, m, ⟨acc, [], rfl, hr, by simp⟩, h1, h2, h3⟩
    · rcases proxied_effect hx p with h1 | ⟨proof, url, m, e', rfl, h7, _, _, _, h8, _, h9, h10, h11, _⟩ | ⟨b, e', rfl, _, _, h1⟩
      · obtain ⟨t, proof, url, m, ⟨before, after, h2, h4, h5⟩, h3⟩ := ih e (h1 ▸ h)
        refine ⟨t, proof, url, m, ⟨before, after ++ [(s, op)], by simp [h2], h4, ?_⟩, h3⟩
        intro q hq e1 he1
        rcases List.mem_append.mp hq with hq | hq
        · exact h5 q hq e1 he1
        · rw [List.mem_singleton.mp hq] at he1
          exact hr ⟨e1, he1⟩
      · exfalso
        refine hr ⟨e', proof, url, m, rfl, ?_, h7, h8, h10, h11⟩
        rw [← h7]
        rcases hx : e'.method with p | _ | p <;> simp only [SgxEnclave.proxied, hx, SgxAttestationMethod.sovereign] at h9 ⊢
        all_goals cases p <;> simp_all
      · rw [h1] at h; cases h

example : NoEnclaves start ∧ ∃ e, (run okCfg start dcapHistory).tx.proxied proxiedAddress = some e :=
  ⟨⟨fun _ => rfl, fun _ => rfl⟩, Option.isSome_iff_exists.mp (by decide +kernel)⟩

end Verif
