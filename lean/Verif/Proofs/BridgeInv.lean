import Verif.Proofs.Frame
import Verif.Proofs.Balances
import Verif.Spec.Bridge

/-!
# Effects of all operations on the storage of the bridge
-/

namespace Verif

open EnclaveBridge

/-- A call that succeeds yields the state of `step`. -/
theorem exec_ok_of_isOk {c : Cfg} {s : Chain} {op : Op} (h : (exec c s op).isOk = true) :
    exec c s op = .ok (step c s op) := by
  unfold step
  cases hx : exec c s op with
  | ok s' => rfl
  | error e => rw [hx] at h; simp [Except.isOk, Except.toBool] at h

theorem br_frame {c : Cfg} {s s' : Chain} {op : Op} (h : exec c s op = .ok s') (hp : Part.bridge ∉ op.parts) :
    s'.br = s.br := exec_frame h .bridge hp

theorem sc_frame {c : Cfg} {s s' : Chain} {op : Op} (h : exec c s op = .ok s') (hp : Part.sidechain ∉ op.parts) :
    s'.sc = s.sc := exec_frame h .sidechain hp

theorem clock_frame {c : Cfg} {s s' : Chain} {op : Op} (h : exec c s op = .ok s') (hp : Part.clock ∉ op.parts) :
    s'.now = s.now ∧ s'.block = s.block := exec_frame h .clock hp

theorem exec_block_le {c : Cfg} {s s' : Chain} {op : Op} (h : exec c s op = .ok s') : s.block ≤ s'.block := by
  by_cases hp : Part.clock ∈ op.parts
  · cases op with
    | newBlock dt => simp only [exec, Except.ok.injEq] at h; rw [← h]; exact Nat.le_succ _
    | ext o k =>
      cases k with
      | claims k => cases k <;> simp [Op.parts, Call.parts] at hp
      | _ => simp [Op.parts, Call.parts] at hp
    | _ => simp [Op.parts] at hp
  · rw [(clock_frame h hp).2]; exact Nat.le_refl _

theorem run_block_le (c : Cfg) (s : Chain) (ops : List Op) : s.block ≤ (run c s ops).block :=
  run_invariant (c := c) (P := fun s' => s.block ≤ s'.block)
    (fun _ _ _ h hx => Nat.le_trans h (exec_block_le hx)) (Nat.le_refl _) ops

/-! ### The status list -/

theorem touchList_eq {l : List SignerStatus} {new : SignerStatus} (h : (l.map (·.signer)).Nodup) :
    touchList l new = touchedList l new := by
  unfold touchList touchedList
  induction l with
  | nil => simp
  | cons x l ih =>
    simp only [List.map_cons, List.nodup_cons] at h
    obtain ⟨h1, h2⟩ := h
    by_cases hx : x.signer = new.signer
    · rw [List.findIdx?_cons]
      simp only [hx, decide_true, if_true, List.set_cons_zero, List.map_cons, List.mem_cons, true_or]
      congr 1
      symm
      calc l.map (fun i => if i.signer = new.signer then new else i) = l.map id := by
            apply List.map_congr_left
            intro i hi
            have : i.signer ≠ new.signer := by
              intro e
              apply h1
              rw [hx, ← e]
              exact List.mem_map.mpr ⟨i, hi, rfl⟩
            simp [this]
        _ = l := by simp
    · have ih := ih h2
      rw [List.findIdx?_cons]
      have hx' : ¬ new.signer = x.signer := fun e => hx e.symm
      simp only [hx, decide_false, Bool.false_eq_true, if_false, List.map_cons, List.mem_cons, hx', false_or]
      cases hf : l.findIdx? (fun i => decide (i.signer = new.signer)) with
      | none =>
        rw [hf] at ih
        simp only at ih
        simp only [Option.map_none]
        split at ih
        · rename_i hm
          simp only [hm, if_true]
          rw [← ih]; simp
        · rename_i hm
          simp only [hm, if_false, List.cons_append]
      | some i =>
        rw [hf] at ih
        simp only at ih
        simp only [Option.map_some, List.set_cons_succ]
        split at ih
        · rename_i hm
          simp only [hm, if_true]
          rw [ih]
        · rename_i hm
          simp only [hm, if_false, List.cons_append]
          rw [ih]

theorem touchedList_signers (l : List SignerStatus) (new : SignerStatus) :
    (touchedList l new).map (·.signer) =
      if new.signer ∈ l.map (·.signer) then l.map (·.signer) else l.map (·.signer) ++ [new.signer] := by
  unfold touchedList
  split
  · rw [List.map_map]
    apply List.map_congr_left
    intro i _
    simp only [Function.comp]
    split
    · rename_i h; exact h.symm
    · rfl
  · simp

theorem touchedList_nodup {l : List SignerStatus} {new : SignerStatus} (h : (l.map (·.signer)).Nodup) :
    ((touchedList l new).map (·.signer)).Nodup := by
  rw [touchedList_signers]
  split
  · exact h
  · rename_i hm
    rw [List.nodup_append]
    refine ⟨h, by simp, ?_⟩
    intro a ha b hb
    simp only [List.mem_singleton] at hb
    subst hb
    intro e
    exact hm (e ▸ ha)

theorem mem_touchedList {l : List SignerStatus} {new i : SignerStatus} (h : i ∈ touchedList l new) :
    i = new ∨ (i ∈ l ∧ i.signer ≠ new.signer) := by
  unfold touchedList at h
  split at h
  · obtain ⟨j, hj, rfl⟩ := List.mem_map.mp h
    split
    · exact .inl rfl
    · rename_i hn; exact .inr ⟨hj, hn⟩
  · rename_i hm
    rcases List.mem_append.mp h with h | h
    · refine .inr ⟨h, fun e => hm ?_⟩
      rw [← e]; exact List.mem_map.mpr ⟨i, h, rfl⟩
    · exact .inl (by simpa using h)

theorem new_mem_touchedList (l : List SignerStatus) (new : SignerStatus) : new ∈ touchedList l new := by
  unfold touchedList
  split
  · rename_i h
    obtain ⟨j, hj, e⟩ := List.mem_map.mp h
    exact List.mem_map.mpr ⟨j, hj, by simp [e]⟩
  · simp

theorem touchedList_others (l : List SignerStatus) (new : SignerStatus) :
    (touchedList l new).filter (fun i => i.signer ≠ new.signer) = l.filter (fun i => i.signer ≠ new.signer) := by
  unfold touchedList
  split
  · rename_i hm
    clear hm
    induction l with
    | nil => rfl
    | cons x l ih =>
      simp only [List.map_cons]
      by_cases hx : x.signer = new.signer
      · simp only [hx, if_true]
        rw [List.filter_cons_of_neg (by simp), List.filter_cons_of_neg (by simp [hx]), ih]
      · simp only [hx, if_false]
        rw [List.filter_cons_of_pos (by simp [hx]), List.filter_cons_of_pos (by simp [hx]), ih]
  · simp

theorem touchedList_ne_nil (l : List SignerStatus) (new : SignerStatus) : touchedList l new ≠ [] :=
  List.ne_nil_of_mem (new_mem_touchedList l new)

/-! ### Effects -/

/-- Effect of any operation on the status of a shard. -/
theorem status_effect {c : Cfg} {s s' : Chain} {op : Op} (h : exec c s op = .ok s') (shard : ShardId) :
    s'.br.status shard = s.br.status shard ∨
    (∃ a k e, op = .ext (.signed a) k ∧ s.tx.sovereign a = some e ∧
      s'.br.status shard = some (touchList (statusOf s shard) ⟨a, e.mrEnclave, s.block⟩) ∧
      (touchList (statusOf s shard) ⟨a, e.mrEnclave, s.block⟩).length ≤ 10) ∨
    (∃ a l, op = .ext .root (.purgeEnclave shard a) ∧ s.br.status shard = some l ∧
      s'.br.status shard = some (l.filter fun i => i.signer ≠ a)) := by
  have key : ∀ (x : ShardId) (l : List SignerStatus) (a : AccountId) (k : Call) (e : SgxEnclave),
      s.tx.sovereign a = some e → l = touched s x a e.fingerprint s.block → l.length ≤ 10 →
      s'.br.status = upd s.br.status x (some l) → op = .ext (.signed a) k →
      s'.br.status shard = s.br.status shard ∨
      (∃ a k e, op = .ext (.signed a) k ∧ s.tx.sovereign a = some e ∧
        s'.br.status shard = some (touchList (statusOf s shard) ⟨a, e.mrEnclave, s.block⟩) ∧
        (touchList (statusOf s shard) ⟨a, e.mrEnclave, s.block⟩).length ≤ 10) := by
    intro x l a k e h1 h2 h3 h4 h5
    by_cases hx : shard = x
    · subst hx
      refine .inr ⟨a, k, e, h5, h1, ?_, ?_⟩
      · rw [h4, upd_same, h2]; rfl
      · rw [h2] at h3; exact h3
    · left; rw [h4, upd_ne _ _ hx]
  by_cases hp : Part.bridge ∈ op.parts
  · cases op with
    | ext o k =>
      cases k with
      | invoke x cy => obtain ⟨a, rfl, rfl⟩ := (invoke_ok (cy := cy)).mp h; exact .inl rfl
      | confirmProcessedParentchainBlock =>
        obtain ⟨a, e, l, ⟨rfl, h1, h2, h3, h4⟩, rfl⟩ := confirmProcessed_ok.mp h
        rcases key _ l a _ e h1 h3 h4 rfl rfl with h | h
        · exact .inl h
        · exact .inr (.inl h)
      | shieldFunds => obtain ⟨a, b, rfl, _, rfl⟩ := shieldFunds_ok.mp h; exact .inl rfl
      | unshieldFunds =>
        obtain ⟨a, e, l, ⟨rfl, h1, h2, h3, h4⟩, (⟨_, _, _, _, _, rfl⟩ | ⟨_, _, _, _, rfl⟩)⟩ := unshieldFunds_ok.mp h
        · rcases key _ l a _ e h1 h3 h4 rfl rfl with h | h
          · exact .inl h
          · exact .inr (.inl h)
        · rcases key _ l a _ e h1 h3 h4 rfl rfl with h | h
          · exact .inl h
          · exact .inr (.inl h)
      | publishHash =>
        obtain ⟨a, e, l, rfl, h1, h3, h4, _, _, rfl⟩ := publishHash_ok.mp h
        rcases key _ l a _ e h1 h3 h4 rfl rfl with h | h
        · exact .inl h
        · exact .inr (.inl h)
      | updateShardConfig =>
        rcases updateShardConfig_ok.mp h with ⟨rfl, rfl⟩ | ⟨a, e, l, rfl, h1, _, h3, h4, rfl⟩
        · exact .inl rfl
        · rcases key _ l a _ e h1 h3 h4 rfl rfl with h | h
          · exact .inl h
          · exact .inr (.inl h)
      | purgeEnclave x a =>
        obtain ⟨l, rfl, h1, h2, rfl⟩ := purgeEnclave_ok.mp h
        by_cases hx : shard = x
        · subst hx
          exact .inr (.inr ⟨a, l, rfl, h1, by simp⟩)
        · left; simp [hx]
      | confirmImportedSidechainBlock =>
        obtain ⟨a, e, l, first, ⟨rfl, h1, h2, h3, h4⟩, _, (⟨_, rfl⟩ | ⟨_, _, rfl⟩)⟩ := Sidechain.confirmImported_ok.mp h
        · rcases key _ l a _ e h1 h3 h4 rfl rfl with h | h
          · exact .inl h
          · exact .inr (.inl h)
        · rcases key _ l a _ e h1 h3 h4 rfl rfl with h | h
          · exact .inl h
          · exact .inr (.inl h)
      | claims k => cases k <;> simp [Op.parts, Call.parts] at hp
      | _ => simp [Op.parts, Call.parts] at hp
    | _ => simp [Op.parts] at hp
  · rw [br_frame h hp]; exact .inl rfl

/-- Effect of any operation on the stored configuration of a shard. -/
theorem config_effect {c : Cfg} {s s' : Chain} {op : Op} (h : exec c s op = .ok s') (shard : ShardId) :
    s'.br.config shard = s.br.config shard ∨
    s'.br.config shard = (s.br.config shard).map (applyDue s.block) ∨
    (∃ o cfg delay, op = .ext o (.updateShardConfig shard cfg delay) ∧
      s'.br.config shard = some (newConfig c s shard cfg delay) ∧
      (o = .root ∨ ∃ a e, o = .signed a ∧ s.tx.sovereign a = some e ∧
        ∀ old, configInEffect s shard s.block = some old → e.mrEnclave = old.fingerprint)) := by
  have key : ∀ x, s'.br.config = dueConfig s x s.block → s'.br.config shard = s.br.config shard ∨
      s'.br.config shard = (s.br.config shard).map (applyDue s.block) := by
    intro x h4
    by_cases hx : shard = x
    · subst hx
      right; rw [h4, dueConfig, upd_same]
    · left; rw [h4, dueConfig, upd_ne _ _ hx]
  by_cases hp : Part.bridge ∈ op.parts
  · cases op with
    | ext o k =>
      cases k with
      | invoke x cy => obtain ⟨a, rfl, rfl⟩ := (invoke_ok (cy := cy)).mp h; exact .inl rfl
      | confirmProcessedParentchainBlock x =>
        obtain ⟨a, e, l, ⟨rfl, h1, h2, h3, h4⟩, rfl⟩ := confirmProcessed_ok.mp h
        rcases key x rfl with h | h
        · exact .inl h
        · exact .inr (.inl h)
      | shieldFunds => obtain ⟨a, b, rfl, _, rfl⟩ := shieldFunds_ok.mp h; exact .inl rfl
      | unshieldFunds x =>
        obtain ⟨a, e, l, ⟨rfl, h1, h2, h3, h4⟩, (⟨_, _, _, _, _, rfl⟩ | ⟨_, _, _, _, rfl⟩)⟩ := unshieldFunds_ok.mp h
        · rcases key x rfl with h | h
          · exact .inl h
          · exact .inr (.inl h)
        · rcases key x rfl with h | h
          · exact .inl h
          · exact .inr (.inl h)
      | publishHash =>
        obtain ⟨a, e, l, rfl, h1, h3, h4, _, _, rfl⟩ := publishHash_ok.mp h
        exact .inl rfl
      | updateShardConfig x cfg delay =>
        by_cases hx : shard = x
        · subst hx
          rcases updateShardConfig_ok.mp h with ⟨rfl, rfl⟩ | ⟨a, e, l, rfl, h1, h2, h3, h4, rfl⟩
          · exact .inr (.inr ⟨_, cfg, delay, rfl, by simp, .inl rfl⟩)
          · exact .inr (.inr ⟨_, cfg, delay, rfl, by simp, .inr ⟨a, e, rfl, h1, h2⟩⟩)
        · rcases updateShardConfig_ok.mp h with ⟨rfl, rfl⟩ | ⟨a, e, l, rfl, h1, h2, h3, h4, rfl⟩
          · left; simp [hx]
          · left; simp [hx]
      | purgeEnclave x a =>
        obtain ⟨l, rfl, h1, h2, rfl⟩ := purgeEnclave_ok.mp h
        exact .inl rfl
      | confirmImportedSidechainBlock x =>
        obtain ⟨a, e, l, first, ⟨rfl, h1, h2, h3, h4⟩, _, (⟨_, rfl⟩ | ⟨_, _, rfl⟩)⟩ := Sidechain.confirmImported_ok.mp h
        · rcases key x rfl with h | h
          · exact .inl h
          · exact .inr (.inl h)
        · rcases key x rfl with h | h
          · exact .inl h
          · exact .inr (.inl h)
      | claims k => cases k <;> simp [Op.parts, Call.parts] at hp
      | _ => simp [Op.parts, Call.parts] at hp
    | _ => simp [Op.parts] at hp
  · rw [br_frame h hp]; exact .inl rfl

/-- Effect of any operation on the confirmation counter of a call hash. -/
theorem executed_effect {c : Cfg} {s s' : Chain} {op : Op} (h : exec c s op = .ok s') (hash : H256) :
    (op.unshieldHash ≠ some hash ∧ s'.br.executed hash = s.br.executed hash) ∨
    (op.unshieldHash = some hash ∧ ∃ n, plainAdd c u64Max ((s.br.executed hash).getD 0) 1 = .ok n ∧
      s'.br.executed hash = some n) := by
  by_cases hp : Part.bridge ∈ op.parts
  · cases op with
    | ext o k =>
      cases k with
      | invoke x cy => obtain ⟨a, rfl, rfl⟩ := (invoke_ok (cy := cy)).mp h; exact .inl ⟨by simp [Op.unshieldHash], rfl⟩
      | confirmProcessedParentchainBlock x =>
        obtain ⟨a, e, l, ⟨rfl, h1, h2, h3, h4⟩, rfl⟩ := confirmProcessed_ok.mp h
        exact .inl ⟨by simp [Op.unshieldHash], rfl⟩
      | shieldFunds =>
        obtain ⟨a, b, rfl, _, rfl⟩ := shieldFunds_ok.mp h; exact .inl ⟨by simp [Op.unshieldHash], rfl⟩
      | unshieldFunds x ben am g =>
        by_cases hg : g = hash
        · subst hg
          obtain ⟨a, e, l, ⟨rfl, h1, h2, h3, h4⟩, (⟨h5, b, n, _, h6, rfl⟩ | ⟨k, n, h5, h6, rfl⟩)⟩ := unshieldFunds_ok.mp h
          · exact .inr ⟨rfl, n, by rw [h5]; exact h6, by simp⟩
          · exact .inr ⟨rfl, n, by rw [h5]; exact h6, by simp⟩
        · obtain ⟨a, e, l, ⟨rfl, h1, h2, h3, h4⟩, (⟨h5, b, n, _, h6, rfl⟩ | ⟨k, n, h5, h6, rfl⟩)⟩ := unshieldFunds_ok.mp h
          · exact .inl ⟨by simp [Op.unshieldHash, hg], by simp [Ne.symm hg]⟩
          · exact .inl ⟨by simp [Op.unshieldHash, hg], by simp [Ne.symm hg]⟩
      | publishHash =>
        obtain ⟨a, e, l, rfl, h1, h3, h4, _, _, rfl⟩ := publishHash_ok.mp h
        exact .inl ⟨by simp [Op.unshieldHash], rfl⟩
      | updateShardConfig x cfg delay =>
        rcases updateShardConfig_ok.mp h with ⟨rfl, rfl⟩ | ⟨a, e, l, rfl, h1, h2, h3, h4, rfl⟩
        · exact .inl ⟨by simp [Op.unshieldHash], rfl⟩
        · exact .inl ⟨by simp [Op.unshieldHash], rfl⟩
      | purgeEnclave x a =>
        obtain ⟨l, rfl, h1, h2, rfl⟩ := purgeEnclave_ok.mp h
        exact .inl ⟨by simp [Op.unshieldHash], rfl⟩
      | confirmImportedSidechainBlock x =>
        obtain ⟨a, e, l, first, ⟨rfl, h1, h2, h3, h4⟩, _, (⟨_, rfl⟩ | ⟨_, _, rfl⟩)⟩ := Sidechain.confirmImported_ok.mp h
        · exact .inl ⟨by simp [Op.unshieldHash], rfl⟩
        · exact .inl ⟨by simp [Op.unshieldHash], rfl⟩
      | claims k => cases k <;> simp [Op.parts, Call.parts] at hp
      | _ => simp [Op.parts, Call.parts] at hp
    | _ => simp [Op.parts] at hp
  · rw [br_frame h hp]
    refine .inl ⟨?_, rfl⟩
    cases op with
    | ext o k => cases k <;> simp_all [Op.parts, Call.parts, Op.unshieldHash]
    | _ => simp [Op.unshieldHash]

theorem applyDue_inEffect (u : UpgradableShardConfig) (b n : Nat) (h : b ≤ n) :
    (applyDue b u).inEffect n = u.inEffect n := by
  obtain ⟨act, pend, up⟩ := u
  cases pend with
  | none => cases up <;> rfl
  | some p =>
    cases up with
    | none => rfl
    | some t =>
      simp only [applyDue]
      by_cases h1 : t ≤ b
      · have h2 : t ≤ n := by omega
        simp [h1, h2, UpgradableShardConfig.inEffect, UpgradableShardConfig.ofConfig]
      · simp [h1]

/-- Whatever does not update the configuration of a shard leaves the configuration in effect alone. -/
theorem inEffect_effect {c : Cfg} {s s' : Chain} {op : Op} (h : exec c s op = .ok s') (shard : ShardId) :
    (∀ n, s.block ≤ n → configInEffect s' shard n = configInEffect s shard n) ∨
    (∃ o cfg delay, op = .ext o (.updateShardConfig shard cfg delay) ∧
      s'.br.config shard = some (newConfig c s shard cfg delay) ∧
      (o = .root ∨ ∃ a e, o = .signed a ∧ s.tx.sovereign a = some e ∧
        ∀ old, configInEffect s shard s.block = some old → e.mrEnclave = old.fingerprint)) := by
  rcases config_effect h shard with h | h | h
  · left; intro n _; unfold configInEffect; rw [h]
  · left; intro n hn; unfold configInEffect; rw [h]
    cases s.br.config shard with
    | none => rfl
    | some u => simp [applyDue_inEffect u _ _ hn]
  · exact .inr h

theorem moved_of_transfer {ed balMax : Nat} {b b' : Balances} {src dst : AccountId} {v : Nat}
    (h : b.transfer ed balMax src dst v = .ok b') (hv : v ≠ 0) (hne : src ≠ dst) : Moved ed b b' src dst v := by
  rcases Balances.transfer_ok h with ⟨h1, _⟩ | ⟨_, _, h1, _, _, _, rfl⟩
  · simp [hv, hne] at h1
  · have hs : upd (upd b.free src (if b.free src - v < ed then 0 else b.free src - v)) dst (b.free dst + v) src =
        if b.free src - v < ed then 0 else b.free src - v := by simp [hne]
    refine ⟨h1, by simp, ?_, ?_, ?_, rfl⟩
    · simp only [hs]
      split
      · rename_i h2; exact .inr ⟨h2, rfl⟩
      · exact .inl rfl
    · simp only [hs]
      split <;> omega
    · intro a h2 h3; simp [h2, h3]

theorem fresh_genesis (bal : Balances) (d k : Bool) (cl : ClaimsSt) : FreshBridge (genesis bal d k cl) :=
  ⟨fun _ => rfl, fun _ => rfl, fun _ => rfl⟩

theorem statusOk_fresh {s : Chain} (h : FreshBridge s) : StatusOk s := by
  intro shard
  simp [statusOf, h.1 shard]

theorem statusOk_exec {c : Cfg} {s s' : Chain} {op : Op} (hs : StatusOk s) (h : exec c s op = .ok s') :
    StatusOk s' := by
  intro shard
  obtain ⟨h1, h2, h3⟩ := hs shard
  have hb := exec_block_le h
  rcases status_effect h shard with h | ⟨a, k, e, _, _, h, hl⟩ | ⟨a, l, _, hl, h⟩
  · unfold statusOf at *
    rw [h]
    exact ⟨h1, h2, fun i hi => Nat.le_trans (h3 i hi) hb⟩
  · have e1 : statusOf s' shard = touchedList (statusOf s shard) ⟨a, e.mrEnclave, s.block⟩ := by
      rw [← touchList_eq h2]
      simp [statusOf, h]
    rw [touchList_eq h2] at hl
    rw [e1]
    refine ⟨hl, touchedList_nodup h2, fun i hi => ?_⟩
    rcases mem_touchedList hi with rfl | ⟨hi, _⟩
    · exact hb
    · exact Nat.le_trans (h3 i hi) hb
  · have e0 : statusOf s shard = l := by simp [statusOf, hl]
    have e1 : statusOf s' shard = l.filter (fun i => i.signer ≠ a) := by simp [statusOf, h]
    rw [e0] at h1 h2 h3
    rw [e1]
    refine ⟨Nat.le_trans (List.length_filter_le _ _) h1, ?_, fun i hi => ?_⟩
    · exact (List.Sublist.map _ List.filter_sublist).nodup h2
    · exact Nat.le_trans (h3 i (List.mem_filter.mp hi).1) hb

theorem statusOk_run {c : Cfg} {s : Chain} (hs : StatusOk s) (ops : List Op) : StatusOk (run c s ops) :=
  run_invariant (fun _ _ _ h hx => statusOk_exec h hx) hs ops

/-- The last element of a stable sort is the last of the maximal elements. -/
theorem mergeSort_getLast {α : Type} (f : α → Nat) {l : List α} {x : α}
    (h : (l.mergeSort fun a b => decide (f a ≤ f b)).getLast? = some x) :
    (∀ y ∈ l, f y ≤ f x) ∧ ∃ pre post, l = pre ++ x :: post ∧ ∀ y ∈ post, f y < f x := by
  have htrans : ∀ a b c : α, decide (f a ≤ f b) = true → decide (f b ≤ f c) = true → decide (f a ≤ f c) = true := by
    intro a b c; simp only [decide_eq_true_eq]; omega
  have htotal : ∀ a b : α, (decide (f a ≤ f b) || decide (f b ≤ f a)) = true := by
    intro a b; simp only [Bool.or_eq_true, decide_eq_true_eq]; omega
  have hperm := List.mergeSort_perm l (fun a b => decide (f a ≤ f b))
  have hsorted := List.pairwise_mergeSort htrans htotal l
  generalize hm : (l.mergeSort fun a b => decide (f a ≤ f b)) = m at *
  obtain ⟨init, rfl⟩ : ∃ init, m = init ++ [x] := List.getLast?_eq_some_iff.mp h
  have hmax : ∀ y ∈ l, f y ≤ f x := by
    intro y hy
    have hy := hperm.mem_iff.mpr hy
    rcases List.mem_append.mp hy with hy | hy
    · have := (List.pairwise_append.mp hsorted).2.2 y hy x (by simp)
      simpa using this
    · simp only [List.mem_singleton] at hy; rw [hy]; exact Nat.le_refl _
  refine ⟨hmax, ?_⟩
  -- the maximal elements are in the same order before and after sorting
  have hsub : List.Sublist (l.filter fun y => decide (f y = f x)) (init ++ [x]) := by
    rw [← hm]
    refine List.sublist_mergeSort htrans htotal ?_ List.filter_sublist
    apply List.Pairwise.imp_of_mem (R := fun _ _ => True)
    · intro a b ha hb _
      have ha := (List.mem_filter.mp ha).2
      have hb := (List.mem_filter.mp hb).2
      simp only [decide_eq_true_eq] at *
      omega
    · exact List.pairwise_of_forall (fun _ _ => trivial)
  have hsub2 := hsub.filter (fun y => decide (f y = f x))
  rw [List.filter_filter] at hsub2
  simp only [Bool.and_self] at hsub2
  have hlen : (l.filter fun y => decide (f y = f x)).length = ((init ++ [x]).filter fun y => decide (f y = f x)).length :=
    (hperm.filter _).length_eq.symm
  have heq := hsub2.eq_of_length hlen
  rw [List.filter_append, List.filter_cons_of_pos (by simp), List.filter_nil] at heq
  -- hence x is the last maximal element of l
  clear hsub hsub2 hlen hsorted hperm h hm
  generalize init.filter (fun y => decide (f y = f x)) = i at heq
  clear init
  induction l generalizing i with
  | nil => simp at heq
  | cons a l ih =>
    by_cases hex : ∃ y ∈ l, f y = f x
    · obtain ⟨y, hy, hyx⟩ := hex
      have hne : l.filter (fun y => decide (f y = f x)) ≠ [] :=
        List.ne_nil_of_mem (List.mem_filter.mpr ⟨hy, by simp [hyx]⟩)
      have hlast : ∃ i', l.filter (fun y => decide (f y = f x)) = i' ++ [x] := by
        by_cases ha : f a = f x
        · rw [List.filter_cons_of_pos (by simp [ha])] at heq
          have h1 := congrArg List.getLast? heq
          rw [List.getLast?_concat, List.getLast?_cons_of_ne_nil hne] at h1
          exact List.getLast?_eq_some_iff.mp h1
        · rw [List.filter_cons_of_neg (by simp [ha])] at heq
          exact ⟨i, heq⟩
      obtain ⟨i', hi'⟩ := hlast
      obtain ⟨pre, post, rfl, hp⟩ := ih (fun y hy => hmax y (by simp [hy])) i' hi'
      exact ⟨a :: pre, post, rfl, hp⟩
    · have hnil : l.filter (fun y => decide (f y = f x)) = [] := by
        rw [List.filter_eq_nil_iff]
        intro y hy
        simp only [decide_eq_true_eq]
        exact fun e => hex ⟨y, hy, e⟩
      by_cases ha : f a = f x
      · rw [List.filter_cons_of_pos (by simp [ha]), hnil] at heq
        have h1 := congrArg List.getLast? heq
        simp only [List.getLast?_concat, List.getLast?_singleton, Option.some.injEq] at h1
        subst h1
        refine ⟨[], l, rfl, fun y hy => ?_⟩
        have h2 := hmax y (by simp [hy])
        have h3 : f y ≠ f a := fun e => hex ⟨y, hy, e⟩
        omega
      · rw [List.filter_cons_of_neg (by simp [ha]), hnil] at heq
        simp at heq

end Verif
