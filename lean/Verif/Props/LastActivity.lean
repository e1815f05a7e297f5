import Verif.Props.LastWrite
import Verif.Proofs.BridgeInv

/-!
# The status of a shard shows the last activity of each enclave: C174
-/

namespace Verif

open Demo EnclaveBridge

theorem last_written_in {α : Type} (c : Cfg) (s0 : Chain) (ops : List Op) (read : Chain → α) (writes : Chain × Op → Option α)
    (h : ∀ s s' op, exec c s op = .ok s' → (writes (s, op) = none ∧ read s' = read s) ∨ writes (s, op) = some (read s')) :
    read (run c s0 ops) = (lastWrittenIn writes (accepted c s0 ops)).getD (read s0) := by
  refine history_induction (c := c) (s0 := s0) (P := fun st acc => read st = (lastWrittenIn writes acc).getD (read s0)) rfl ?_ ops
  intro s s' op acc ih hx
  unfold lastWrittenIn at ih ⊢
  rw [List.filterMap_append]
  rcases h s s' op hx with ⟨h1, h2⟩ | h1
  · rw [h2, ih]
    simp [h1]
  · simp [h1]

/-- The entry of an account in a list. -/
theorem find_touchList (l : List SignerStatus) (new : SignerStatus) (a : AccountId) :
    (touchList l new).find? (fun i => i.signer = a) = if new.signer = a then some new else l.find? (fun i => i.signer = a) := by
  unfold touchList
  induction l with
  | nil => by_cases h : new.signer = a <;> simp [h]
  | cons x l ih =>
    by_cases hx : x.signer = new.signer
    · by_cases h : new.signer = a
      · simp [List.findIdx?_cons, hx, h]
      · have : ¬ x.signer = a := by rw [hx]; exact h
        simp [List.findIdx?_cons, hx, h]
    · rw [List.findIdx?_cons]
      simp only [hx, decide_false, Bool.false_eq_true, if_false]
      cases hf : List.findIdx? (fun i => decide (i.signer = new.signer)) l with
      | none =>
        rw [hf] at ih
        simp only at ih
        by_cases h : new.signer = a
        · have : ¬ x.signer = a := by rw [← h]; exact hx
          simp only [Option.map_none, List.cons_append, List.find?_cons, this, decide_false]
          exact ih
        · simp only [Option.map_none, List.cons_append, List.find?_cons, h, if_false] at ih ⊢
          rw [ih]
      | some i =>
        rw [hf] at ih
        simp only at ih
        by_cases h : new.signer = a
        · have : ¬ x.signer = a := by rw [← h]; exact hx
          simp only [Option.map_some, List.set_cons_succ, List.find?_cons, this, decide_false]
          exact ih
        · simp only [Option.map_some, List.set_cons_succ, List.find?_cons, h, if_false] at ih ⊢
          rw [ih]

theorem find_filter (l : List SignerStatus) (b a : AccountId) :
    (l.filter fun i => i.signer ≠ b).find? (fun i => i.signer = a) = if b = a then none else l.find? (fun i => i.signer = a) := by
  induction l with
  | nil => simp
  | cons x l ih =>
    rw [List.filter_cons, List.find?_cons]
    by_cases hx : x.signer = b
    · by_cases h : b = a
      · simp only [hx, h, ne_eq, not_true_eq_false, decide_false, Bool.false_eq_true, if_false, if_true] at ih ⊢
        exact ih
      · simp only [hx, h, ne_eq, not_true_eq_false, decide_false, Bool.false_eq_true, if_false] at ih ⊢
        exact ih
    · by_cases h : b = a
      · have : ¬ x.signer = a := by rw [← h]; exact hx
        simp only [hx, h, ne_eq, not_false_eq_true, decide_true, if_true, List.find?_cons, this, decide_false] at ih ⊢
        exact ih
      · simp only [hx, h, ne_eq, not_false_eq_true, decide_true, if_true, List.find?_cons, if_false] at ih ⊢
        rw [ih]

/-- The entry of an account after activity of an account in a shard. -/
theorem entry_of_active {s s' : Chain} {x shard : ShardId} {a b : AccountId} {e : SgxEnclave} {k : Call}
    (he : s.tx.sovereign b = some e) (hk : k.activeIn e = some x)
    (hs : s'.br.status = upd s.br.status x (some (touched s x b e.fingerprint s.block))) :
    (writesEntry shard a (s, .ext (.signed b) k) = none ∧
      (statusOf s' shard).find? (fun i => i.signer = a) = (statusOf s shard).find? (fun i => i.signer = a)) ∨
    writesEntry shard a (s, .ext (.signed b) k) = some ((statusOf s' shard).find? fun i => i.signer = a) := by
  by_cases hx : shard = x
  · subst hx
    have hst : statusOf s' shard = touchList (statusOf s shard) ⟨b, e.mrEnclave, s.block⟩ := by
      unfold statusOf
      rw [hs, upd_same]
      rfl
    by_cases hb : b = a
    · subst hb
      right
      rw [hst, find_touchList]
      simp [writesEntry, he, hk]
    · left
      rw [hst, find_touchList]
      refine ⟨?_, by simp [hb]⟩
      unfold writesEntry
      cases h : s.tx.sovereign a <;> simp [h, hb]
  · left
    constructor
    · by_cases hb : b = a
      · subst hb
        simp [writesEntry, he, hk, Ne.symm hx]
      · unfold writesEntry
        cases h : s.tx.sovereign a <;> simp [h, hb]
    · unfold statusOf
      rw [hs, upd_ne _ _ hx]

/-- An operation that writes nothing. -/
theorem entry_same {s s' : Chain} {shard : ShardId} {a : AccountId} {op : Op} (h : ∀ b k e, op = .ext (.signed b) k → k.activeIn e = none)
    (h' : ∀ x b, op ≠ .ext .root (.purgeEnclave x b)) (hs : s'.br.status = s.br.status) :
    (writesEntry shard a (s, op) = none ∧
      (statusOf s' shard).find? (fun i => i.signer = a) = (statusOf s shard).find? (fun i => i.signer = a)) ∨
    writesEntry shard a (s, op) = some ((statusOf s' shard).find? fun i => i.signer = a) := by
  left
  refine ⟨?_, by unfold statusOf; rw [hs]⟩
  unfold writesEntry
  split
  · rename_i s1 b k heq
    obtain ⟨rfl, rfl⟩ := Prod.mk.inj heq
    split
    · rename_i e _
      simp [h b k e rfl]
    · rfl
  · rename_i x b heq
    obtain ⟨_, rfl⟩ := Prod.mk.inj heq
    exact absurd rfl (h' _ _)
  · rfl

/-- C174: after every history, the entry of an account in the status of a shard is what its last activity in the shard says: the code
that the account was registered with then, and the block. There is no entry if there was no activity since the last purge of
the account (or at all, on a chain that started without shards). -/
theorem C174_entry (c : Cfg) (s0 : Chain) (ops : List Op) (shard : ShardId) (a : AccountId) :
    (statusOf (run c s0 ops) shard).find? (fun i => i.signer = a) =
      (lastWrittenIn (writesEntry shard a) (accepted c s0 ops)).getD ((statusOf s0 shard).find? fun i => i.signer = a) := by
  refine last_written_in c s0 ops (fun s => (statusOf s shard).find? fun i => i.signer = a) _ fun s s' op h => ?_
  by_cases hp : Part.bridge ∈ op.parts
  · cases op with
    | ext o k =>
      cases k with
      | invoke x cy =>
        obtain ⟨b, rfl, rfl⟩ := (invoke_ok (cy := cy)).mp h
        exact entry_same (fun _ _ _ h => by cases h; rfl) (fun _ _ h => by cases h) rfl
      | confirmProcessedParentchainBlock =>
        obtain ⟨b, e, l, ⟨rfl, h1, h2, rfl, h4⟩, rfl⟩ := confirmProcessed_ok.mp h
        exact entry_of_active h1 rfl rfl
      | shieldFunds =>
        obtain ⟨b, _, rfl, _, rfl⟩ := shieldFunds_ok.mp h
        exact entry_same (fun _ _ _ h => by cases h; rfl) (fun _ _ h => by cases h) rfl
      | unshieldFunds =>
        obtain ⟨b, e, l, ⟨rfl, h1, h2, rfl, h4⟩, (⟨_, _, _, _, _, rfl⟩ | ⟨_, _, _, _, rfl⟩)⟩ := unshieldFunds_ok.mp h <;>
        exact entry_of_active h1 rfl rfl
      | publishHash =>
        obtain ⟨b, e, l, rfl, h1, rfl, h4, _, _, rfl⟩ := publishHash_ok.mp h
        exact entry_of_active h1 rfl rfl
      | updateShardConfig =>
        rcases updateShardConfig_ok.mp h with ⟨rfl, rfl⟩ | ⟨b, e, l, rfl, h1, _, rfl, h4, rfl⟩
        · exact entry_same (fun _ _ _ h => by cases h) (fun _ _ h => by cases h) rfl
        · exact entry_of_active h1 rfl rfl
      | purgeEnclave x b =>
        obtain ⟨l, rfl, h1, h2, rfl⟩ := purgeEnclave_ok.mp h
        by_cases hx : x = shard
        · subst hx
          have hst : statusOf s x = l := by simp [statusOf, h1]
          by_cases hb : b = a
          · subst hb
            right
            simp only [writesEntry, and_self, if_true, Option.some.injEq, statusOf, upd_same, Option.getD_some]
            rw [find_filter, if_pos rfl]
          · left
            refine ⟨by simp [writesEntry, hb], ?_⟩
            rw [hst]
            simp only [statusOf, upd_same, Option.getD_some]
            rw [find_filter, if_neg hb]
        · left
          refine ⟨by simp [writesEntry, hx], ?_⟩
          simp [statusOf, upd, Ne.symm hx]
      | confirmImportedSidechainBlock =>
        obtain ⟨b, e, l, first, ⟨rfl, h1, h2, rfl, h4⟩, _, (⟨_, rfl⟩ | ⟨_, _, rfl⟩)⟩ := Sidechain.confirmImported_ok.mp h <;>
        exact entry_of_active h1 rfl rfl
      | claims k => cases k <;> simp [Op.parts, Call.parts] at hp
      | _ => simp [Op.parts, Call.parts] at hp
    | _ => simp [Op.parts] at hp
  · refine entry_same (fun b k e ho => ?_) (fun x b ho => ?_) (by rw [br_frame h hp])
    · subst ho
      cases k <;> first | rfl | exact absurd (by simp [Op.parts, Call.parts]) hp
    · subst ho
      exact absurd (by simp [Op.parts, Call.parts]) hp

/-! ### Example -/

/-- Alice and Bob are active in the shard, both are purged, and Bob comes back two blocks later. -/
def activityOps : List Op :=
  [enroll alice 7, enroll bob 7, .ext (.signed alice) (.confirmProcessedParentchainBlock shard7 hash1 5 hash2),
   .ext (.signed bob) (.confirmProcessedParentchainBlock shard7 hash1 5 hash2), .ext .root (.purgeEnclave shard7 alice),
   .ext .root (.purgeEnclave shard7 bob), .newBlock 6, .newBlock 6, .ext (.signed bob) (.publishHash hash1 [] []),
   .ext (.signed alice) (.shieldFunds shard7 [] 10)]

/-- What the claim says about the two: Alice has no entry, and Bob's is of the block with the hash. -/
example : lastWrittenIn (writesEntry shard7 alice) (accepted cfg start activityOps) = some none ∧
    lastWrittenIn (writesEntry shard7 bob) (accepted cfg start activityOps) =
      some (some ⟨bob, shard7, (run cfg start activityOps).block⟩) ∧
    (run cfg start activityOps).block = start.block + 2 ∧ lastWrittenIn (writesEntry shard7 carol) (accepted cfg start activityOps) = none ∧
    (accepted cfg start activityOps).length = 10 := by
  decide +kernel

end Verif
