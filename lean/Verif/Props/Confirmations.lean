import Verif.Props.Sidechain
import Verif.Props.Lifecycle

/-!
# The order of confirmations: C134, C135
-/

namespace Verif

open Demo EnclaveBridge

/-! ### C134 Parentchain blocks are confirmed in order -/

/-- Hash, root and number of a confirmation of a parentchain block for a shard. -/
def BrEvent.confirmation (shard : ShardId) : BrEvent → Option (H256 × H256 × Nat)
  | .processedParentchainBlock sh bh root n => if sh = shard then some (bh, root, n) else none
  | _ => none

/-- The parentchain blocks confirmed for a shard, newest first. -/
def confirmedBlocks (s : Chain) (shard : ShardId) : List (H256 × H256 × Nat) :=
  s.br.events.filterMap (BrEvent.confirmation shard)

/-- The full claim: the numbers of the confirmed blocks of a shard never go down. It is false for the code (see
`C134_refuted`). -/
def C134_Full : Prop :=
  ∀ (c : Cfg) (s0 : Chain) (ops : List Op) (shard : ShardId), FreshBridge s0 → s0.br.events = [] →
    (confirmedBlocks (run c s0 ops) shard).Pairwise fun new old => old.2.2 ≤ new.2.2

/-- Block 9 is confirmed, then block 3. -/
def backwards : List Op :=
  [enroll alice 7, .ext (.signed alice) (.confirmProcessedParentchainBlock shard7 hash1 9 hash2),
   .ext (.signed alice) (.confirmProcessedParentchainBlock shard7 hash2 3 hash1)]

theorem C134_refuted : ¬ C134_Full := by
  intro h
  have := h cfg start backwards shard7 ⟨fun _ => rfl, fun _ => rfl, fun _ => rfl⟩ rfl
  revert this
  decide +kernel

/-- C134, partial: every confirmation of a shard is added by a call of an enclave with the code in effect that carries
these data, and none is ever removed. Missing: the order of numbers. -/
theorem C134_signed_partial (c : Cfg) (s s' : Chain) (op : Op) (shard : ShardId) (h : exec c s op = .ok s') :
    confirmedBlocks s' shard = confirmedBlocks s shard ∨
    ∃ a bh n root, op = .ext (.signed a) (.confirmProcessedParentchainBlock shard bh n root) ∧ RightEnclave s shard a ∧
      confirmedBlocks s' shard = (bh, root, n) :: confirmedBlocks s shard := by
  have other : ∀ e : BrEvent, s'.br.events = e :: s.br.events → e.confirmation shard = none →
      confirmedBlocks s' shard = confirmedBlocks s shard := by
    intro e h1 h2
    simp [confirmedBlocks, h1, h2]
  by_cases hp : Part.bridge ∈ op.parts
  · cases op with
    | ext o k =>
      cases k with
      | invoke x cy => obtain ⟨a, rfl, rfl⟩ := (invoke_ok (cy := cy)).mp h; exact .inl (other _ rfl rfl)
      | confirmProcessedParentchainBlock x bh n root =>
        obtain ⟨a, e, l, ⟨rfl, h1, h2, h3, h4⟩, rfl⟩ := confirmProcessed_ok.mp h
        by_cases hx : x = shard
        · subst hx
          exact .inr ⟨a, bh, n, root, rfl, ⟨e, h1, h2⟩, by simp [confirmedBlocks, BrEvent.confirmation]⟩
        · exact .inl (other _ rfl (by simp [BrEvent.confirmation, hx]))
      | shieldFunds =>
        obtain ⟨a, b, rfl, _, rfl⟩ := shieldFunds_ok.mp h; exact .inl (other _ rfl rfl)
      | unshieldFunds x ben am g =>
        obtain ⟨a, e, l, _, (⟨h5, b, n, _, h6, rfl⟩ | ⟨k, n, h5, h6, rfl⟩)⟩ := unshieldFunds_ok.mp h
        · exact .inl (other _ rfl rfl)
        · exact .inl rfl
      | publishHash =>
        obtain ⟨a, e, l, rfl, h1, h3, h4, _, _, rfl⟩ := publishHash_ok.mp h
        exact .inl (other _ rfl rfl)
      | updateShardConfig x cfg delay =>
        rcases updateShardConfig_ok.mp h with ⟨rfl, rfl⟩ | ⟨a, e, l, rfl, h1, h2, h3, h4, rfl⟩
        · exact .inl (other _ rfl rfl)
        · exact .inl (other _ rfl rfl)
      | purgeEnclave x a =>
        obtain ⟨l, rfl, h1, h2, rfl⟩ := purgeEnclave_ok.mp h
        exact .inl (other _ rfl rfl)
      | confirmImportedSidechainBlock x =>
        obtain ⟨a, e, l, first, _, _, (⟨_, rfl⟩ | ⟨_, _, rfl⟩)⟩ := Sidechain.confirmImported_ok.mp h
        · exact .inl rfl
        · exact .inl rfl
      | claims k => cases k <;> simp [Op.parts, Call.parts] at hp
      | _ => simp [Op.parts, Call.parts] at hp
    | _ => simp [Op.parts] at hp
  · left; unfold confirmedBlocks; rw [br_frame h hp]

example : confirmedBlocks (step cfg (run cfg start [enroll alice 7])
      (.ext (.signed alice) (.confirmProcessedParentchainBlock shard7 hash1 9 hash2))) shard7 = [(hash1, hash2, 9)] ∧
    (exec cfg (run cfg start [enroll alice 7])
      (.ext (.signed alice) (.confirmProcessedParentchainBlock shard7 hash1 9 hash2))).isOk = true := by decide +kernel

/-- C134, partial: whether a confirmation is accepted does not depend on the confirmed block at all. -/
theorem C134_unchecked_partial (c : Cfg) (s : Chain) (o : Origin) (shard : ShardId) (bh bh' root root' : H256) (n n' : Nat) :
    (∃ s', exec c s (.ext o (.confirmProcessedParentchainBlock shard bh n root)) = .ok s') ↔
    ∃ s', exec c s (.ext o (.confirmProcessedParentchainBlock shard bh' n' root')) = .ok s' := by
  constructor
  · rintro ⟨s', h⟩
    obtain ⟨a, e, l, he, _⟩ := confirmProcessed_ok.mp h
    exact ⟨_, confirmProcessed_ok.mpr ⟨a, e, l, he, rfl⟩⟩
  · rintro ⟨s', h⟩
    obtain ⟨a, e, l, he, _⟩ := confirmProcessed_ok.mp h
    exact ⟨_, confirmProcessed_ok.mpr ⟨a, e, l, he, rfl⟩⟩

example : (accepted cfg start backwards).length = 3 ∧
    confirmedBlocks (run cfg start backwards) shard7 = [(hash2, hash1, 3), (hash1, hash2, 9)] := by decide +kernel

/-! ### C135 No finalised block is the last one -/

/-- The call confirms a block with a number that fits into 64 bits, as every encoded call does. -/
def Op.fits64 : Op → Prop
  | .ext _ (.confirmImportedSidechainBlock _ _ cand) => cand.number ≤ u64Max
  | _ => True

instance (op : Op) : Decidable op.fits64 := by unfold Op.fits64; split <;> infer_instance

/-- The full claim: while an enclave of a shard is registered, there is a way to finalise a further block, possibly after
further operations. It is false for the code (see `C135_refuted`). -/
def C135_Full : Prop :=
  ∀ (c : Cfg) (s0 : Chain) (ops : List Op) (shard : ShardId), FreshBridge s0 → FreshSidechain s0 →
    (∀ op ∈ ops, op.fits64) → (∃ a, RightEnclave (run c s0 ops) shard a) →
    ∃ more op cand, (∀ op ∈ more, op.fits64) ∧ op.fits64 ∧ Finalizes c (run c s0 (ops ++ more)) op shard cand

/-- Once the largest number is finalised, nothing else ever is, whatever anybody does, root included. -/
theorem C135_end (c : Cfg) (s : Chain) (shard : ShardId) (k : Confirmation) (h : s.sc.latest shard = some k)
    (hk : u64Max ≤ k.number) (more : List Op) (hmore : ∀ op ∈ more, op.fits64) :
    (run c s more).sc.latest shard = some k ∧ finalizedBlocks (run c s more) shard = finalizedBlocks s shard := by
  refine run_invariant' (c := c) (Q := Op.fits64)
    (P := fun t => t.sc.latest shard = some k ∧ finalizedBlocks t shard = finalizedBlocks s shard) ?_ ⟨h, rfl⟩ more hmore
  rintro t t' op hq ⟨i1, i2⟩ hx
  rcases sc_effect hx shard with ⟨h1, h2⟩ | ⟨a, e, l, i, anc, cand, rfl, _, _, _, _, hf, h1, h2⟩
  · rw [h1, h2]; exact ⟨i1, i2⟩
  · exfalso
    have := (hf k i1).2
    have : cand.number ≤ u64Max := hq
    omega

/-- The first enclave finalises the largest number. -/
def lastBlock : List Op := [enroll alice 7, enroll carol 7, imported alice none (2 ^ 64 - 1) hash1]

/-- The hypotheses of `C135_end` are met after that block, for example if the other enclave confirms further blocks. -/
example : (run cfg start lastBlock).sc.latest shard7 = some ⟨2 ^ 64 - 1, hash1⟩ ∧
    (∀ op ∈ [imported carol (some ⟨2 ^ 64 - 1, hash1⟩) 5 hash2, .newBlock 6000], op.fits64) := by decide +kernel

theorem C135_refuted : ¬ C135_Full := by
  intro h
  have hr : RightEnclave (run cfg start lastBlock) shard7 carol := by
    have : ((run cfg start lastBlock).tx.sovereign carol).map (·.mrEnclave) =
        some (fingerprintInEffect (run cfg start lastBlock) shard7 (run cfg start lastBlock).block) := by decide +kernel
    rw [Option.map_eq_some_iff] at this
    exact this
  obtain ⟨more, op, cand, h1, h2, s', hx, hfin⟩ := h cfg start lastBlock shard7 ⟨fun _ => rfl, fun _ => rfl, fun _ => rfl⟩
    ⟨fun _ => rfl, rfl⟩ (by decide +kernel) ⟨_, hr⟩
  have hl : (run cfg start lastBlock).sc.latest shard7 = some ⟨2 ^ 64 - 1, hash1⟩ := by decide +kernel
  rw [run_append] at hx hfin
  have e1 := (C135_end cfg _ shard7 _ hl (Nat.le_refl _) more h1).2
  have e2 := (C135_end cfg _ shard7 _ hl (Nat.le_refl _) (more ++ [op]) (by
    intro x hx'
    rcases List.mem_append.mp hx' with hx' | hx'
    · exact h1 x hx'
    · rw [List.mem_singleton.mp hx']; exact h2)).2
  rw [run_snoc, step_of_ok hx] at e2
  rw [e2, e1] at hfin
  exact absurd (congrArg List.length hfin) (by simp)

/-- C135, partial: after purging, every enclave of the shard can finalise any larger number, so it is the last block only
if its number is the largest one. Missing: no bound on the gap between the numbers of two blocks. -/
theorem C135_room_partial (c : Cfg) (s0 : Chain) (ops : List Op) (shard : ShardId) (a : AccountId) (h0 : FreshBridge s0)
    (hr : RightEnclave (run c s0 ops) shard a) (hroom : ∀ k, (run c s0 ops).sc.latest shard = some k → k.number < u64Max) :
    ∃ more cand, cand.number ≤ u64Max ∧ (∀ op ∈ more, op.fits64) ∧
      Finalizes c (run c s0 (ops ++ more)) (.ext (.signed a) (.confirmImportedSidechainBlock shard
        ((run c s0 ops).sc.latest shard) cand)) shard cand := by
  obtain ⟨l, hl⟩ := C41_after_purges_partial c s0 ops shard a ⟨u64Max, hash1⟩ h0 hr hroom
  refine ⟨purges shard l, _, Nat.le_refl _, fun op hop => ?_, hl⟩
  simp only [purges, List.mem_map] at hop
  obtain ⟨x, _, rfl⟩ := hop
  trivial

example : FreshBridge start ∧ (∀ k, (run cfg start stalled).sc.latest shard7 = some k → k.number < u64Max) ∧
    ((run cfg start stalled).tx.sovereign carol).map (·.mrEnclave) =
      some (fingerprintInEffect (run cfg start stalled) shard7 (run cfg start stalled).block) := by
  refine ⟨⟨fun _ => rfl, fun _ => rfl, fun _ => rfl⟩, fun k hk => ?_, by decide +kernel⟩
  have : (run cfg start stalled).sc.latest shard7 = some ⟨5, hash1⟩ := by decide +kernel
  rw [this] at hk
  obtain rfl := Option.some.inj hk
  decide

end Verif
