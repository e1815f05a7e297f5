import Verif.Spec.Takeover
import Verif.Props.Accept
import Verif.Props.Sidechain
import Verif.Spec.DemoBridge

/-!
# Root can hand a shard over to any enclave: C179
-/

namespace Verif

open Demo EnclaveBridge

theorem onlyShard_refl (s : Chain) (shard : ShardId) : OnlyShard s s shard :=
  ⟨⟨rfl, rfl⟩, rfl, rfl, rfl, rfl, rfl, rfl, rfl, rfl, rfl, rfl, fun _ _ => ⟨rfl, rfl⟩⟩

theorem onlyShard_trans {s t u : Chain} {shard : ShardId} (h1 : OnlyShard s t shard) (h2 : OnlyShard t u shard) :
    OnlyShard s u shard :=
  ⟨⟨h2.time.1.trans h1.time.1, h2.time.2.trans h1.time.2⟩, h2.bal.trans h1.bal, h2.td.trans h1.td, h2.tx.trans h1.tx,
    h2.sc.trans h1.sc, h2.orc.trans h1.orc, h2.cl.trans h1.cl, h2.ar.trans h1.ar, h2.assets.trans h1.assets, h2.xt.trans h1.xt,
    h2.executed.trans h1.executed, fun i hi => ⟨(h2.others i hi).1.trans (h1.others i hi).1, (h2.others i hi).2.trans (h1.others i hi).2⟩⟩

theorem repair_only {c : Cfg} {s : Chain} {shard : ShardId} {op : Op} (hr : RootRepair shard op) :
    OnlyShard s (step c s op) shard := by
  rcases step_cases c s op with h | ⟨h, _⟩
  · generalize step c s op = t at *
    rcases hr with ⟨cfg, rfl⟩ | ⟨b, rfl⟩
    · rcases updateShardConfig_ok.mp h with ⟨_, rfl⟩ | ⟨_, _, _, h1, _⟩
      · exact ⟨⟨rfl, rfl⟩, rfl, rfl, rfl, rfl, rfl, rfl, rfl, rfl, rfl, rfl, fun i hi => ⟨rfl, by simp [upd, hi]⟩⟩
      · cases h1
    · obtain ⟨l, _, _, _, rfl⟩ := purgeEnclave_ok.mp h
      exact ⟨⟨rfl, rfl⟩, rfl, rfl, rfl, rfl, rfl, rfl, rfl, rfl, rfl, rfl, fun i hi => ⟨by simp [upd, hi], rfl⟩⟩
  · rw [h]; exact onlyShard_refl s shard

theorem repairs_only {c : Cfg} {s : Chain} {shard : ShardId} {ops : List Op} (hr : ∀ op ∈ ops, RootRepair shard op) :
    OnlyShard s (run c s ops) shard := by
  induction ops generalizing s with
  | nil => exact onlyShard_refl s shard
  | cons op ops ih =>
    rw [run_cons]
    exact onlyShard_trans (repair_only (hr op (List.mem_cons_self ..))) (ih fun x hx => hr x (List.mem_cons_of_mem _ hx))

theorem newConfig_now (c : Cfg) (s : Chain) (shard : ShardId) (cfg : ShardConfig) :
    (newConfig c s shard cfg 0).inEffect s.block = cfg := by
  unfold newConfig
  cases configInEffect s shard s.block with
  | none => rfl
  | some old =>
    have : satAdd c.blockMax s.block 0 ≤ s.block := by simp only [satAdd]; omega
    simp [UpgradableShardConfig.inEffect, this]

/-- **C179.** After any history root can hand any shard over to any account with a registered enclave, by at most eleven calls: one for
the configuration, the others taking accounts off the list. They change nothing but the shard's status and configuration, in
particular no money. Then the account can act for the shard in every way: confirm blocks, configure the shard, pay out of its
vault whatever the vault can pay, and finalise the next sidechain block; and whoever runs other code cannot act for it. -/
theorem C179_takeover (c : Cfg) (s0 : Chain) (ops : List Op) (h0 : FreshBridge s0) (shard : ShardId) (a : AccountId)
    (e : SgxEnclave) (he : (run c s0 ops).tx.sovereign a = some e) :
    ∃ repair, (∀ op ∈ repair, RootRepair shard op) ∧ repair.length ≤ 11 ∧
      OnlyShard (run c s0 ops) (run c s0 (ops ++ repair)) shard ∧
      (∀ bh bn root, ∃ s', exec c (run c s0 (ops ++ repair))
        (.ext (.signed a) (.confirmProcessedParentchainBlock shard bh bn root)) = .ok s') ∧
      (∀ cfg delay, ∃ s', exec c (run c s0 (ops ++ repair)) (.ext (.signed a) (.updateShardConfig shard cfg delay)) = .ok s') ∧
      (∀ ben amount call, (run c s0 ops).br.executed call = none → CanPay c (run c s0 ops) shard ben amount →
        ∃ s', exec c (run c s0 (ops ++ repair)) (.ext (.signed a) (.unshieldFunds shard ben amount call)) = .ok s') ∧
      (∀ cand, (∀ k, (run c s0 ops).sc.latest shard = some k → k.number < cand.number) →
        Finalizes c (run c s0 (ops ++ repair))
          (.ext (.signed a) (.confirmImportedSidechainBlock shard ((run c s0 ops).sc.latest shard) cand)) shard cand) ∧
      (∀ b x k s', (run c s0 ops).tx.sovereign b = some x → x.mrEnclave ≠ e.mrEnclave → ShardAct shard k →
        exec c (run c s0 (ops ++ repair)) (.ext (.signed b) k) ≠ .ok s') := by
  let cfg : ShardConfig := { fingerprint := e.mrEnclave, maxInstances := none, authorities := none, maintenance := false }
  let up : Op := .ext .root (.updateShardConfig shard cfg 0)
  let l := (statusOf (run c s0 ops) shard).map (·.signer)
  have hok := statusOk_run (c := c) (statusOk_fresh h0) ops
  have hx : exec c (run c s0 ops) up = .ok _ := updateShardConfig_ok.mpr (.inl ⟨rfl, rfl⟩)
  have hrep : ∀ op ∈ up :: purges shard l, RootRepair shard op := by
    intro op hop
    rcases List.mem_cons.mp hop with rfl | hop
    · exact .inl ⟨cfg, rfl⟩
    · obtain ⟨b, _, rfl⟩ := List.mem_map.mp hop; exact .inr ⟨b, rfl⟩
  have honly := repairs_only (c := c) (s := run c s0 ops) hrep
  rw [← run_append] at honly
  have hok' := statusOk_run (c := c) (statusOk_fresh h0) (ops ++ up :: purges shard l)
  -- the configuration and the status after the repair
  have hmid : run c s0 (ops ++ up :: purges shard l) = run c (step c (run c s0 ops) up) (purges shard l) := by
    rw [run_append]; rfl
  rw [step_of_ok hx] at hmid
  have hcfg : configInEffect (run c s0 (ops ++ up :: purges shard l)) shard (run c s0 (ops ++ up :: purges shard l)).block = some cfg ∧
      statusOf (run c s0 (ops ++ up :: purges shard l)) shard = [] := by
    rw [honly.time.2, hmid]
    by_cases hsome : (run c s0 ops).br.status shard = none
    · have hl : l = [] := by simp [l, statusOf, hsome]
      rw [hl]
      refine ⟨?_, by simp [purges, run_nil, statusOf, hsome]⟩
      simp only [purges, List.map_nil, run_nil, configInEffect, upd_same, Option.map_some, newConfig_now]
    · obtain ⟨h1, h2, h3, h4, h5⟩ := purges_effect c shard l
        { run c s0 ops with br := { (run c s0 ops).br with
          config := upd (run c s0 ops).br.config shard (some (newConfig c (run c s0 ops) shard cfg 0))
          events := .shardConfigUpdated shard :: (run c s0 ops).br.events } } hok hsome
      refine ⟨?_, ?_⟩
      · simp only [configInEffect, h5, upd_same, Option.map_some, newConfig_now]
      · rw [h1, List.filter_eq_nil_iff]
        intro i hi
        simp only [decide_not, Bool.not_eq_true', decide_eq_false_iff_not, Classical.not_not]
        exact List.mem_map.mpr ⟨i, hi, rfl⟩
  obtain ⟨hcf, hst⟩ := hcfg
  refine ⟨up :: purges shard l, hrep, ?_, honly, ?_⟩
  · have := (hok shard).1
    simp only [purges, l, List.length_cons, List.length_map]; omega
  generalize run c s0 ops = s at *
  generalize ht : run c s0 (ops ++ up :: purges shard l) = t at *
  have hfp : fingerprintInEffect t shard t.block = e.mrEnclave := by simp [fingerprintInEffect, hcf, cfg]
  have hright : RightEnclave t shard a := ⟨e, by rw [honly.tx, he], hfp.symm⟩
  have hplace : HasPlace t shard a := .inr (by rw [hst]; decide)
  have hact : MayAct t (.signed a) shard a := ⟨rfl, hright, hplace⟩
  refine ⟨fun bh bn root => (accepts_iff hok' _ _).mpr ⟨a, hact⟩, fun cf delay => (accepts_iff hok' _ _).mpr
    (.inr ⟨a, e, rfl, by rw [honly.tx, he], hplace, fun old ho => ?_⟩),
    fun ben amount call h1 h2 => (accepts_iff hok' _ _).mpr ⟨a, hact, ?_⟩, fun cand hnew => ?_, fun b x k s' hb hne hk hx => ?_⟩
  · rw [hcf] at ho; cases ho; rfl
  · rw [honly.executed, h1]; simpa only [CanPay, honly.bal] using h2
  · have := C41_primary_partial c s0 (ops ++ up :: purges shard l) shard a cand h0 (ht ▸ hright) (.inl (ht ▸ hst))
      (by rw [ht, honly.sc]; exact hnew)
    rw [ht, honly.sc] at this
    exact this
  · have hno : ¬ RightEnclave t shard b := by
      rintro ⟨y, h1, h2⟩
      rw [honly.tx, hb] at h1; cases h1; rw [hfp] at h2; exact hne h2
    have hacc := (accepts_iff hok' _ _).mp ⟨s', hx⟩
    cases hk with
    | confirm => obtain ⟨d, h1, h2, _⟩ := hacc; cases h1; exact hno h2
    | pay => obtain ⟨d, ⟨h1, h2, _⟩, _⟩ := hacc; cases h1; exact hno h2
    | configure =>
      rcases hacc with h1 | ⟨d, y, h1, h2, _, h3⟩
      · cases h1
      · cases h1; rw [honly.tx, hb] at h2; cases h2
        exact hne (h3 cfg hcf)
    | finalize => obtain ⟨d, ⟨h1, h2, _⟩, _⟩ := hacc; cases h1; exact hno h2

/-- Alice, running foreign code 9, was the first to configure shard 7, which Bob paid 100 into. Carol runs code 7. -/
def seized : List Op :=
  [enroll alice 9, enroll carol 7, .ext (.signed alice) (.updateShardConfig shard7 (config 9) 0), shield bob 100]

/-- Root's repair for this case. -/
def seizedRepair : List Op := [.ext .root (.updateShardConfig shard7 (config 7) 0), .ext .root (.purgeEnclave shard7 alice)]

/-- Before the repair Alice can pay out of the vault and Carol cannot, afterwards it is the other way round. -/
example : FreshBridge start ∧ ((run cfg start seized).tx.sovereign carol).isSome ∧
    ((run cfg start seized).tx.sovereign alice).map (·.mrEnclave) ≠ ((run cfg start seized).tx.sovereign carol).map (·.mrEnclave) ∧
    (∀ op ∈ seizedRepair, RootRepair shard7 op) ∧ CanPay cfg (run cfg start seized) shard7 carol 60 ∧
    (run cfg start seized).br.executed hash1 = none ∧
    (exec cfg (run cfg start seized) (unshield alice alice 60 hash1)).isOk = true ∧
    (exec cfg (run cfg start seized) (unshield carol carol 60 hash1)).isOk = false ∧
    (exec cfg (run cfg start (seized ++ seizedRepair)) (unshield alice alice 60 hash1)).isOk = false ∧
    (exec cfg (run cfg start (seized ++ seizedRepair)) (unshield carol carol 60 hash1)).isOk = true := by
  refine ⟨⟨fun _ => rfl, fun _ => rfl, fun _ => rfl⟩, by decide +kernel, by decide +kernel, ?_, ?_, by decide +kernel,
    by decide +kernel, by decide +kernel, by decide +kernel, by decide +kernel⟩
  · intro op hop
    simp only [seizedRepair, List.mem_cons, List.not_mem_nil, or_false] at hop
    rcases hop with rfl | rfl
    · exact .inl ⟨_, rfl⟩
    · exact .inr ⟨_, rfl⟩
  · refine .inr (.inr ⟨by decide +kernel, fun id h => absurd ?_ h, by decide +kernel, by decide +kernel⟩)
    cases id <;> decide +kernel

end Verif
