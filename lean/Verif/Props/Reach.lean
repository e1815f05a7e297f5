import Verif.Spec.Reach
import Verif.Props.Outsider

/-!
# How far enclaves of untrusted code reach: C181
-/

namespace Verif

open Demo EnclaveBridge Scale

theorem keepsOut_fingerprint {F : Fingerprint → Prop} {s : Chain} {shard : ShardId} (h : KeepsOut F s shard) (n : Nat) :
    ∃ cfg, configInEffect s shard n = some cfg ∧ ¬ F cfg.fingerprint := by
  obtain ⟨⟨act, pend, up⟩, h1, h2, h3⟩ := h
  simp only [configInEffect, h1, Option.map_some, Option.some.injEq, exists_eq_left']
  cases pend with
  | none => exact h2
  | some p =>
    cases up with
    | none => exact h2
    | some t =>
      simp only [UpgradableShardConfig.inEffect]
      split
      · exact h3 p rfl
      · exact h2

theorem keepsOut_entered {F : Fingerprint → Prop} {s : Chain} {shard i : ShardId} {a b : AccountId} {e : SgxEnclave}
    {l : List SignerStatus} (h : KeepsOut F s shard) (ha : RunsOnly F s a) (he : Entered s (.signed a) i b e l) : shard ≠ i := by
  rintro rfl
  obtain ⟨h1, h2, h3, _⟩ := he
  cases h1
  obtain ⟨cfg, h4, h5⟩ := keepsOut_fingerprint h s.block
  simp only [fingerprintInEffect, h4] at h3
  exact h5 (h3 ▸ ha e h2)

theorem shardKept_of_eq {F : Fingerprint → Prop} {s t : Chain} {shard : ShardId} (h1 : t.br.config = s.br.config)
    (h2 : t.sc.latest = s.sc.latest) (h3 : t.br.status = s.br.status) : ShardKept F s t shard :=
  ⟨by rw [h1], by rw [h2], fun _ => by rw [h3]⟩

/-- **C181.** Let all enclaves of an account run code from `F`. No call that the account signs changes a shard whose configuration names
no such code, takes money out of the vault of such a shard, or changes what is known from a source that trusts no such code. -/
theorem C181_reach {c : Cfg} {s s' : Chain} {F : Fingerprint → Prop} {a : AccountId} {k : Call}
    (h : exec c s (.ext (.signed a) k) = .ok s') (ha : RunsOnly F s a) :
    (∀ shard, KeepsOut F s shard → ShardKept F s s' shard ∧ (shard ≠ a → s.bal.free shard ≤ s'.bal.free shard)) ∧
    (∀ src, NotListed F s src → SourceKept s s' src) := by
  refine ⟨fun shard hs => ⟨?_, fun hne => Nat.le_of_not_lt fun hlt => ?_⟩, fun src hs => ?_⟩
  · cases k with
    | confirmProcessedParentchainBlock i =>
      obtain ⟨_, _, _, h1, rfl⟩ := confirmProcessed_ok.mp h
      have hi := keepsOut_entered hs ha h1
      exact ⟨by simp [dueConfig, upd, hi], rfl, fun _ => by simp [upd, hi]⟩
    | unshieldFunds i ben _ hash =>
      obtain ⟨_, _, _, h1, ⟨_, _, _, _, _, rfl⟩ | ⟨_, _, _, _, rfl⟩⟩ := unshieldFunds_ok.mp h <;>
        have hi := keepsOut_entered hs ha h1 <;>
        exact ⟨by simp [dueConfig, upd, hi], rfl, fun _ => by simp [upd, hi]⟩
    | publishHash hash topics data =>
      obtain ⟨_, e, _, h1, h2, _, _, _, _, rfl⟩ := publishHash_ok.mp h
      cases h1
      refine ⟨rfl, rfl, fun hf => ?_⟩
      have hi : shard ≠ e.fingerprint := fun he => hf (he ▸ ha e h2)
      simp [upd, hi]
    | updateShardConfig i cfg delay =>
      rcases updateShardConfig_ok.mp h with ⟨h1, _⟩ | ⟨_, e, _, h1, h2, h3, _, _, rfl⟩
      · cases h1
      · cases h1
        have hi : shard ≠ i := by
          rintro rfl
          obtain ⟨old, h4, h5⟩ := keepsOut_fingerprint hs s.block
          exact h5 (h3 old h4 ▸ ha e h2)
        exact ⟨by simp [upd, hi], rfl, fun _ => by simp [upd, hi]⟩
    | confirmImportedSidechainBlock i =>
      obtain ⟨_, _, _, _, h1, _, ⟨_, rfl⟩ | ⟨_, _, rfl⟩⟩ := Sidechain.confirmImported_ok.mp h <;>
        have hi := keepsOut_entered hs ha h1
      · exact ⟨by simp [dueConfig, upd, hi], rfl, fun _ => by simp [upd, hi]⟩
      · exact ⟨by simp [dueConfig, upd, hi], by simp [upd, hi], fun _ => by simp [upd, hi]⟩
    | invoke i cy => obtain ⟨_, _, rfl⟩ := (invoke_ok (cy := cy)).mp h; exact ⟨rfl, rfl, fun _ => rfl⟩
    | shieldFunds i => obtain ⟨_, _, _, _, rfl⟩ := shieldFunds_ok.mp h; exact ⟨rfl, rfl, fun _ => rfl⟩
    | claims q =>
      have h1 := exec_frame h .bridge (by cases q <;> simp [Op.parts, Call.parts])
      have h2 := exec_frame h .sidechain (by cases q <;> simp [Op.parts, Call.parts])
      exact shardKept_of_eq (by rw [h1]) (by rw [h2]) (by rw [h1])
    | purgeEnclave i => obtain ⟨_, h1, _⟩ := purgeEnclave_ok.mp h; cases h1
    | _ =>
      have h1 := exec_frame h .bridge (by simp [Op.parts, Call.parts])
      have h2 := exec_frame h .sidechain (by simp [Op.parts, Call.parts])
      exact shardKept_of_eq (by rw [h1]) (by rw [h2]) (by rw [h1])
  · rcases free_decrease h shard hlt with ⟨_, h1⟩ | ⟨_, h1⟩ | ⟨d, _, _, _, h1, ⟨e, h2, h3⟩, _⟩
    · cases h1; exact hne rfl
    · cases h1
    · cases h1
      obtain ⟨cfg, h4, h5⟩ := keepsOut_fingerprint hs s.block
      simp only [fingerprintInEffect, h4] at h3
      exact h5 (h3 ▸ ha e h2)
  · cases k with
    | claims q =>
      have h1 := exec_frame h .teeracle (by cases q <;> simp [Op.parts, Call.parts])
      exact ⟨by rw [h1], fun _ => by rw [h1], fun _ => by rw [h1]⟩
    | addToWhitelist q => obtain ⟨h1, _⟩ := Teeracle.addToWhitelist_ok.mp h; cases h1
    | removeFromWhitelist q fp => obtain ⟨h1, _⟩ := Teeracle.removeFromWhitelist_ok.mp h; cases h1
    | updateOracle name q =>
      obtain ⟨_, e, h1, h2, h3, _, _, _, rfl⟩ := Teeracle.updateOracle_ok.mp h
      cases h1
      have hi : src ≠ q := fun he => hs _ (he ▸ h3) (ha e h2)
      refine ⟨rfl, fun n => ?_, fun _ => rfl⟩
      by_cases hn : n = name <;> simp [upd, hi, hn]
    | updateExchangeRate q pair r =>
      obtain ⟨_, e, h1, h2, _, h3, rfl⟩ := Teeracle.updateExchangeRate_ok.mp h
      cases h1
      have hi : src ≠ q := fun he => hs _ (he ▸ h3) (ha e h2)
      refine ⟨rfl, fun _ => rfl, fun n => ?_⟩
      by_cases hn : n = pair <;> simp [upd, hi, hn]
    | _ =>
      have h1 := exec_frame h .teeracle (by simp [Op.parts, Call.parts])
      exact ⟨by rw [h1], fun _ => by rw [h1], fun _ => by rw [h1]⟩

/-- What is no call changes no shard, no source, no enclave. -/
theorem no_call_kept {c : Cfg} {s s' : Chain} {op : Op} (h : exec c s op = .ok s') (hn : ∀ o k, op ≠ .ext o k) :
    s'.br = s.br ∧ s'.sc = s.sc ∧ s'.orc = s.orc ∧ s'.tx = s.tx := by
  cases op with
  | ext o k => exact absurd rfl (hn o k)
  | addVesting a v =>
    simp only [exec] at h; split at h
    · cases h; exact ⟨rfl, rfl, rfl, rfl⟩
    · cases h
  | _ => cases h; exact ⟨rfl, rfl, rfl, rfl⟩

/-- However many such accounts act together, however often, and whatever the chain does besides carrying out calls: as long as none
of them registers another enclave, shards that name none of their code and sources that trust none of it are as before, and the vaults of
these shards have lost nothing, unless another pallet slashes them. -/
theorem C181_together {c : Cfg} {s : Chain} {F : Fingerprint → Prop} (P : AccountId → Prop) (hP : ∀ a, P a → RunsOnly F s a)
    (ops : List Op)
    (hops : ∀ o k, .ext o k ∈ ops → ∃ a, o = .signed a ∧ P a ∧ ∀ proof url m, k ≠ .registerSgxEnclave proof url m) :
    (∀ shard, KeepsOut F s shard → ShardKept F s (run c s ops) shard ∧
      (¬ P shard → (∀ n, .slash shard n ∉ ops) → s.bal.free shard ≤ (run c s ops).bal.free shard)) ∧
    (∀ src, NotListed F s src → SourceKept s (run c s ops) src) := by
  suffices H : (∀ a, P a → RunsOnly F (run c s ops) a) ∧ (∀ shard, KeepsOut F s shard → ShardKept F s (run c s ops) shard ∧
      (¬ P shard → (∀ n, .slash shard n ∉ ops) → s.bal.free shard ≤ (run c s ops).bal.free shard)) ∧
      (∀ src, NotListed F s src → SourceKept s (run c s ops) src) from H.2
  refine run_invariant' (P := fun t => (∀ a, P a → RunsOnly F t a) ∧ (∀ shard, KeepsOut F s shard → ShardKept F s t shard ∧
      (¬ P shard → (∀ n, .slash shard n ∉ ops) → s.bal.free shard ≤ t.bal.free shard)) ∧
      (∀ src, NotListed F s src → SourceKept s t src)) (Q := fun op => op ∈ ops)
    (fun t t' op hq ht h => ?_) ⟨hP, fun _ _ => ⟨⟨rfl, rfl, fun _ => rfl⟩, fun _ _ => Nat.le_refl _⟩,
      fun _ _ => ⟨rfl, fun _ => rfl, fun _ => rfl⟩⟩ ops (fun op hop => hop)
  obtain ⟨hR, hS, hO⟩ := ht
  by_cases hn : ∃ o k, op = .ext o k
  · obtain ⟨o, k, rfl⟩ := hn
    obtain ⟨a, rfl, ha, hk⟩ := hops o k hq
    obtain ⟨i1, i2⟩ := C181_reach h (hR a ha)
    refine ⟨fun b hb e he => ?_, fun shard hs => ?_, fun src hs => ?_⟩
    · rcases sovereign_effect h b with h1 | ⟨_, _, _, _, h1, _⟩ | ⟨_, _, _, _, _, h1⟩
      · exact hR b hb e (h1 ▸ he)
      · cases h1; exact absurd rfl (hk _ _ _)
      · rw [h1] at he; cases he
    · obtain ⟨⟨j1, j2, j3⟩, j4⟩ := hS shard hs
      obtain ⟨⟨l1, l2, l3⟩, l4⟩ := i1 shard (by unfold KeepsOut at hs ⊢; rw [j1]; exact hs)
      exact ⟨⟨l1.trans j1, l2.trans j2, fun hf => (l3 hf).trans (j3 hf)⟩,
        fun hp hsl => Nat.le_trans (j4 hp hsl) (l4 fun he => hp (he ▸ ha))⟩
    · obtain ⟨j1, j2, j3⟩ := hO src hs
      obtain ⟨l1, l2, l3⟩ := i2 src (by unfold NotListed at hs ⊢; rw [j1]; exact hs)
      exact ⟨l1.trans j1, fun n => (l2 n).trans (j2 n), fun n => (l3 n).trans (j3 n)⟩
  · obtain ⟨h1, h2, h3, h4⟩ := no_call_kept h fun o k he => hn ⟨o, k, he⟩
    refine ⟨fun b hb e he => hR b hb e (h4 ▸ he), fun shard hs => ?_, fun src hs => ?_⟩
    · obtain ⟨⟨j1, j2, j3⟩, j4⟩ := hS shard hs
      refine ⟨⟨by rw [h1, j1], by rw [h2, j2], fun hf => by rw [h1, j3 hf]⟩, fun hp hsl =>
        Nat.le_trans (j4 hp hsl) (Nat.le_of_not_lt fun hlt => ?_)⟩
      rcases free_decrease h shard hlt with ⟨_, h5⟩ | ⟨n, h5⟩ | ⟨_, _, _, _, h5, _⟩
      · exact hn ⟨_, _, h5⟩
      · exact hsl n (h5 ▸ hq)
      · exact hn ⟨_, _, h5⟩
    · obtain ⟨j1, j2, j3⟩ := hO src hs
      exact ⟨by rw [h3, j1], fun n => by rw [h3, j2], fun n => by rw [h3, j3]⟩

/-- Code 9 is not to be trusted. Alice runs it, Carol runs code 7 and has configured shard 7, into which Bob paid 100,
and has reported to a source for which code 7 is on the whitelist. -/
def reachStart : Chain :=
  run cfg start [enroll alice 9, enroll carol 7, .ext (.signed carol) (.updateShardConfig shard7 (config 7) 0), shield bob 100,
    .ext .root (.addToWhitelist [1] (Arr.fill 32 7)), .ext (.signed carol) (.updateOracle [2] [1] [3])]

/-- Alice seizes a shard without configuration, publishes, and tries to pay out of shard 7, to configure it and to report to
the source. -/
def reachOps : List Op :=
  [.ext (.signed alice) (.updateShardConfig (Arr.fill 32 55) (config 9) 0), .ext (.signed alice) (.publishHash hash1 [] [1]),
   .newBlock 6, unshield alice alice 60 hash1, .ext (.signed alice) (.updateShardConfig shard7 (config 9) 0),
   .ext (.signed alice) (.updateOracle [2] [1] [4])]

/-- The first three are accepted, the attacks on shard 7 and the source are not. -/
example : (∀ a, a = alice → RunsOnly (· = Arr.fill 32 9) reachStart a) ∧ (reachStart.tx.sovereign alice).isSome ∧
    KeepsOut (· = Arr.fill 32 9) reachStart shard7 ∧ NotListed (· = Arr.fill 32 9) reachStart [1] ∧
    reachStart.orc.blobs [2] [1] = some [3] ∧
    (∀ o k, .ext o k ∈ reachOps → ∃ a, o = .signed a ∧ a = alice ∧ ∀ proof url m, k ≠ .registerSgxEnclave proof url m) ∧
    (accepted cfg reachStart reachOps).length = 3 ∧ reachStart.bal.free shard7 = 100 ∧ shard7 ≠ alice ∧
    shard7 ≠ Arr.fill 32 9 ∧ (run cfg reachStart reachOps).br.config (Arr.fill 32 55) ≠ reachStart.br.config (Arr.fill 32 55) := by
  refine ⟨?_, by decide +kernel, ?_, ?_, by decide +kernel, ?_, by decide +kernel, by decide +kernel, by decide +kernel,
    by decide +kernel, by decide +kernel⟩
  · rintro a rfl e he
    have : (reachStart.tx.sovereign alice).map (·.mrEnclave) = some (Arr.fill 32 9) := by decide +kernel
    rw [he] at this
    exact Option.some.inj this
  · have : reachStart.br.config shard7 = some ⟨config 7, none, none⟩ := by decide +kernel
    exact ⟨_, this, by decide +kernel, fun _ h => nomatch h⟩
  · unfold NotListed
    rw [show reachStart.orc.whitelist [1] = [Arr.fill 32 7] by decide +kernel]
    decide +kernel
  · intro o k h
    simp only [reachOps, unshield, List.mem_cons, Op.ext.injEq, reduceCtorEq, false_or, List.not_mem_nil, or_false] at h
    rcases h with ⟨rfl, rfl⟩ | ⟨rfl, rfl⟩ | ⟨rfl, rfl⟩ | ⟨rfl, rfl⟩ | ⟨rfl, rfl⟩ <;>
      exact ⟨alice, rfl, rfl, fun _ _ _ h => nomatch h⟩

/-- The exception for the status is needed: code 7 is retired from shard 7, but Carol's enclave still runs it, and by publishing
a hash gets into the status of shard 7. -/
example :
    let s := run cfg start [enroll carol 7, .ext .root (.updateShardConfig shard7 (config 8) 0)]
    KeepsOut (· = Arr.fill 32 7) s shard7 ∧ (s.tx.sovereign carol).map (·.mrEnclave) = some (Arr.fill 32 7) ∧
    (statusOf s shard7).map (·.signer) = [] ∧
    (statusOf (run cfg s [.ext (.signed carol) (.publishHash hash1 [] [1])]) shard7).map (·.signer) = [carol] := by
  refine ⟨⟨⟨config 8, none, none⟩, by decide +kernel, by decide +kernel, fun _ h => nomatch h⟩, by decide +kernel, by decide +kernel,
    by decide +kernel⟩

end Verif
