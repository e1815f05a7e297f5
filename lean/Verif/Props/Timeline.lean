import Verif.Props.Bridge
import Verif.Props.Succession
import Verif.Spec.Timeline

/-!
# The configuration of a shard at any block follows from the accepted updates: C176
-/

namespace Verif

open Demo EnclaveBridge

/-- After an update, what is in effect from this block on. -/
theorem inEffect_update {c : Cfg} {s s' : Chain} {shard : ShardId} {cfg : ShardConfig} {delay n : Nat}
    (h : s'.br.config shard = some (newConfig c s shard cfg delay)) :
    configInEffect s' shard n = match configInEffect s shard s.block with
      | some old => some (if min (s.block + delay) c.blockMax ≤ n then cfg else old)
      | none => some cfg := by
  unfold configInEffect at *
  rw [h, Option.map_some, newConfig]
  unfold configInEffect
  cases hs : Option.map (fun u => u.inEffect s.block) (s.br.config shard) with
  | none => rfl
  | some old =>
    simp only [UpgradableShardConfig.inEffect, satAdd]
    rfl

theorem takes_snoc_old {c : Cfg} {ups : List (Nat × ShardConfig × Nat)} {u : Nat × ShardConfig × Nat} {i n : Nat}
    (hi : i < ups.length) (hn : u.1 ≤ n) : TakesEffect c (ups ++ [u]) i n ↔ TakesEffect c ups i u.1 := by
  constructor
  · rintro ⟨v, h1, h2⟩
    rcases getElem?_snoc.mp h1 with h1 | ⟨rfl, _⟩
    · refine ⟨v, h1, ?_⟩
      rcases h2 with h2 | ⟨_, h3⟩
      · exact .inl h2
      · exact .inr ⟨h3 ups.length u hi (getElem?_snoc.mpr (.inr ⟨rfl, rfl⟩)), fun j w hj hw => h3 j w hj (getElem?_snoc.mpr (.inl hw))⟩
    · omega
  · rintro ⟨v, h1, h2⟩
    refine ⟨v, getElem?_snoc.mpr (.inl h1), ?_⟩
    rcases h2 with h2 | ⟨h2, h3⟩
    · exact .inl h2
    · refine .inr ⟨Nat.le_trans h2 hn, fun j w hj hw => ?_⟩
      rcases getElem?_snoc.mp hw with hw | ⟨_, rfl⟩
      · exact h3 j w hj hw
      · exact h2

theorem takes_snoc_new {c : Cfg} {ups : List (Nat × ShardConfig × Nat)} {u : Nat × ShardConfig × Nat} {n : Nat} :
    TakesEffect c (ups ++ [u]) ups.length n ↔ ups = [] ∨ dueAt c u ≤ n := by
  have hget : (ups ++ [u])[ups.length]? = some u := getElem?_snoc.mpr (.inr ⟨rfl, rfl⟩)
  constructor
  · rintro ⟨v, h1, h2⟩
    rw [hget] at h1
    obtain rfl := Option.some.inj h1
    rcases h2 with h2 | ⟨h2, _⟩
    · exact .inl (List.length_eq_zero_iff.mp h2)
    · exact .inr h2
  · intro h
    refine ⟨u, hget, ?_⟩
    rcases h with h | h
    · exact .inl (by rw [h]; rfl)
    · refine .inr ⟨h, fun j w hj hw => ?_⟩
      have := (List.getElem?_eq_some_iff.mp hw).1
      simp at this
      omega

theorem takes_lt {c : Cfg} {ups : List (Nat × ShardConfig × Nat)} {i n : Nat} (h : TakesEffect c ups i n) : i < ups.length := by
  obtain ⟨u, hu, _⟩ := h
  exact (List.getElem?_eq_some_iff.mp hu).1

/-- C176: after every history that starts without shards, the configuration of a shard in effect at the present or any later block
`n` (as long as no further update is accepted) is the one of the last update that takes effect by `n`; there is none exactly if no
update was ever accepted. So an update that is followed by another one before it is due never takes effect. -/
theorem C176_timeline (c : Cfg) (s0 : Chain) (ops : List Op) (shard : ShardId) (n : Nat) (h0 : FreshBridge s0)
    (hn : (run c s0 ops).block ≤ n) :
    (configInEffect (run c s0 ops) shard n = none ↔ updatesOf shard (accepted c s0 ops) = []) ∧
    ∀ cfg, configInEffect (run c s0 ops) shard n = some cfg ↔
      ∃ i b d, (updatesOf shard (accepted c s0 ops))[i]? = some (b, cfg, d) ∧
        TakesEffect c (updatesOf shard (accepted c s0 ops)) i n ∧
        ∀ j, i < j → ¬ TakesEffect c (updatesOf shard (accepted c s0 ops)) j n := by
  refine history_induction (c := c) (s0 := s0) (P := fun st acc => ∀ n, st.block ≤ n →
    (configInEffect st shard n = none ↔ updatesOf shard acc = []) ∧
    ∀ cfg, configInEffect st shard n = some cfg ↔ ∃ i b d, (updatesOf shard acc)[i]? = some (b, cfg, d) ∧
      TakesEffect c (updatesOf shard acc) i n ∧ ∀ j, i < j → ¬ TakesEffect c (updatesOf shard acc) j n) ?_ ?_ ops n hn
  · intro n _
    have hc : configInEffect s0 shard n = none := by simp [configInEffect, h0.2.1 shard]
    rw [hc]
    exact ⟨by simp [updatesOf], fun cfg => ⟨fun h => by simp at h, fun ⟨i, b, d, h, _⟩ => by simp [updatesOf] at h⟩⟩
  · intro s s' op acc ih hx n hn
    have hb := Nat.le_trans (exec_block_le hx) hn
    by_cases hop : ∃ o cfg d, op = .ext o (.updateShardConfig shard cfg d)
    · obtain ⟨o, cfg, d, rfl⟩ := hop
      have hcfg : s'.br.config shard = some (newConfig c s shard cfg d) := by
        have hx' : updateShardConfig c s o shard cfg d = .ok s' := hx
        rcases updateShardConfig_ok.mp hx' with ⟨rfl, rfl⟩ | ⟨a, e, l, rfl, h1, h2, h3, h4, rfl⟩ <;> simp
      have hu : updatesOf shard (acc ++ [(s, .ext o (.updateShardConfig shard cfg d))]) = updatesOf shard acc ++ [(s.block, cfg, d)] := by
        simp [updatesOf]
      have hget : (updatesOf shard acc ++ [(s.block, cfg, d)])[(updatesOf shard acc).length]? = some (s.block, cfg, d) :=
        getElem?_snoc.mpr (.inr ⟨rfl, rfl⟩)
      obtain ⟨ih1, ih2⟩ := ih s.block (Nat.le_refl _)
      rw [hu, inEffect_update hcfg]
      refine ⟨?_, fun x => ?_⟩
      · constructor
        · intro h
          split at h <;> cases h
        · intro h
          simp at h
      · by_cases hnew : TakesEffect c (updatesOf shard acc ++ [(s.block, cfg, d)]) (updatesOf shard acc).length n
        · -- the new one is the last that takes effect
          have hl : (match configInEffect s shard s.block with
              | some old => some (if min (s.block + d) c.blockMax ≤ n then cfg else old)
              | none => some cfg) = some cfg := by
            rcases takes_snoc_new.mp hnew with h | h
            · rw [ih1.mpr h]
            · have h : min (s.block + d) c.blockMax ≤ n := h
              split
              · rw [if_pos h]
              · rfl
          rw [hl, Option.some.injEq]
          constructor
          · rintro rfl
            refine ⟨_, _, _, hget, hnew, fun j hj h => ?_⟩
            have := takes_lt h
            simp at this
            omega
          · rintro ⟨i, b, d', h1, h2, h3⟩
            have hlt := takes_lt h2
            rw [List.length_append, List.length_singleton] at hlt
            by_cases hi : i = (updatesOf shard acc).length
            · subst hi
              rw [hget] at h1
              cases h1
              rfl
            · exact absurd hnew (h3 _ (by omega))
        · -- what was in effect at the block of the update stays
          have hne : updatesOf shard acc ≠ [] := fun h => hnew (takes_snoc_new.mpr (.inl h))
          have hdue : ¬ min (s.block + d) c.blockMax ≤ n := fun h => hnew (takes_snoc_new.mpr (.inr h))
          have hl : (match configInEffect s shard s.block with
              | some old => some (if min (s.block + d) c.blockMax ≤ n then cfg else old)
              | none => some cfg) = configInEffect s shard s.block := by
            cases hs : configInEffect s shard s.block with
            | none => exact absurd (ih1.mp hs) hne
            | some old => simp only [if_neg hdue]
          rw [hl, ih2 x]
          constructor
          · rintro ⟨i, b, d', h1, h2, h3⟩
            refine ⟨i, b, d', getElem?_snoc.mpr (.inl h1), (takes_snoc_old (takes_lt h2) hb).mpr h2, fun j hj h => ?_⟩
            have hlt := takes_lt h
            rw [List.length_append, List.length_singleton] at hlt
            by_cases hi : j = (updatesOf shard acc).length
            · exact hnew (hi ▸ h)
            · exact h3 j hj ((takes_snoc_old (by omega) hb).mp h)
          · rintro ⟨i, b, d', h1, h2, h3⟩
            have hlt := takes_lt h2
            rw [List.length_append, List.length_singleton] at hlt
            by_cases hi : i = (updatesOf shard acc).length
            · exact absurd (hi ▸ h2) hnew
            · rcases getElem?_snoc.mp h1 with h1 | ⟨h1, _⟩
              · refine ⟨i, b, d', h1, (takes_snoc_old (by omega) hb).mp h2, fun j hj h => ?_⟩
                exact h3 j hj ((takes_snoc_old (takes_lt h) hb).mpr h)
              · exact absurd h1 hi
    · have hu : updatesOf shard (acc ++ [(s, op)]) = updatesOf shard acc := by
        unfold updatesOf
        rw [List.filterMap_append]
        rcases op with ⟨o, k⟩ | _ | _ | _ <;> try simp
        cases k <;> try simp
        rename_i x cfg d
        intro h
        subst h
        exact hop ⟨o, cfg, d, rfl⟩
      rcases inEffect_effect hx shard with h | ⟨o, cfg, d, h, _⟩
      · rw [hu, h n hb]
        exact ih n hb
      · exact absurd ⟨o, cfg, d, h⟩ hop

/-! ### Example -/

/-- Root configures a shard; an update with delay 3 is replaced one block later by one with delay 1. -/
def timelineOps : List Op :=
  [.ext .root (.updateShardConfig shard7 (config 7) 0), .newBlock 1, .ext .root (.updateShardConfig shard7 (config 8) 3), .newBlock 1,
   .ext .root (.updateShardConfig shard7 (config 9) 1)]

/-- The hypotheses hold, there are three updates, and the second one never takes effect: first the configuration is that of the
first update, and then that of the third. -/
example : FreshBridge start ∧ (updatesOf shard7 (accepted cfg start timelineOps)).length = 3 ∧
    configInEffect (run cfg start timelineOps) shard7 (run cfg start timelineOps).block = some (config 7) ∧
    configInEffect (run cfg start timelineOps) shard7 ((run cfg start timelineOps).block + 1) = some (config 9) ∧
    configInEffect (run cfg start timelineOps) shard7 ((run cfg start timelineOps).block + 5) = some (config 9) :=
  ⟨⟨fun _ => rfl, fun _ => rfl, fun _ => rfl⟩, by decide +kernel, by decide +kernel, by decide +kernel, by decide +kernel⟩

end Verif
