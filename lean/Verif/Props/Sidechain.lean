import Verif.Proofs.BridgeInv
import Verif.Spec.Sidechain
import Verif.Spec.DemoBridge

/-!
# Properties of the sidechain pallet: C39 - C42
-/

namespace Verif

open Demo EnclaveBridge Sidechain

/-- Effect of any operation on the finalized blocks of a shard. -/
theorem sc_effect {c : Cfg} {s s' : Chain} {op : Op} (h : exec c s op = .ok s') (shard : ShardId) :
    (finalizedBlocks s' shard = finalizedBlocks s shard ∧ s'.sc.latest shard = s.sc.latest shard) ∨
    (∃ a e l i anc cand, op = .ext (.signed a) (.confirmImportedSidechainBlock shard anc cand) ∧
      Entered s (.signed a) shard a e l ∧ l.head? = some i ∧ i.signer = a ∧ s'.br.status shard = some l ∧
      Follows s shard anc cand ∧ finalizedBlocks s' shard = cand :: finalizedBlocks s shard ∧
      s'.sc.latest shard = some cand) := by
  by_cases hp : Part.sidechain ∈ op.parts
  · cases op with
    | ext o k =>
      cases k with
      | confirmImportedSidechainBlock sh anc cand =>
        obtain ⟨a, e, l, first, hE, hf, (⟨_, rfl⟩ | ⟨ha, hl, rfl⟩)⟩ := confirmImported_ok.mp h
        · exact .inl ⟨rfl, rfl⟩
        · by_cases hs : sh = shard
          · subst hs
            obtain ⟨ho, _⟩ := id hE
            subst ho
            exact .inr ⟨a, e, l, first, anc, cand, rfl, hE, hf, ha.symm, by simp, hl,
              by simp [finalizedBlocks, ScEvent.blockOf], by simp⟩
          · exact .inl ⟨by simp [finalizedBlocks, ScEvent.blockOf, hs], by simp [Ne.symm hs]⟩
      | claims k => cases k <;> simp [Op.parts, Call.parts] at hp
      | _ => simp [Op.parts, Call.parts] at hp
    | _ => simp [Op.parts] at hp
  · have hsc := sc_frame h hp
    exact .inl ⟨by simp [finalizedBlocks, hsc], by rw [hsc]⟩

/-- Head of the status list after the signer was active. -/
theorem touchedList_head {l : List SignerStatus} {new : SignerStatus} {a : AccountId} (ha : new.signer = a) :
    ((touchedList l new).head?.map (·.signer) = some a) ↔ (l = [] ∨ l.head?.map (·.signer) = some a) := by
  have h := touchedList_signers l new
  rw [← List.head?_map, h, ← List.head?_map, ha]
  cases l with
  | nil => simp
  | cons x l => split <;> simp

/-! ### C39 Finalized sidechain blocks form a growing linked chain -/

/-- C39: block numbers strictly increase, and the stored latest confirmation is the last finalized block. -/
theorem C39_growing (c : Cfg) (s0 : Chain) (ops : List Op) (h0 : FreshSidechain s0) (shard : ShardId) :
    (finalizedBlocks (run c s0 ops) shard).Pairwise (fun new old => old.number < new.number) ∧
    (run c s0 ops).sc.latest shard = (finalizedBlocks (run c s0 ops) shard).head? := by
  refine run_invariant (c := c) (P := fun s =>
    (finalizedBlocks s shard).Pairwise (fun new old => old.number < new.number) ∧
    s.sc.latest shard = (finalizedBlocks s shard).head?) ?_ ?_ ops
  · rintro s s' op ⟨ih1, ih2⟩ hx
    rcases sc_effect hx shard with ⟨h1, h2⟩ | ⟨a, e, l, i, anc, cand, _, _, _, _, _, hf, h1, h2⟩
    · rw [h1, h2]; exact ⟨ih1, ih2⟩
    · rw [h1, h2]
      refine ⟨List.pairwise_cons.mpr ⟨?_, ih1⟩, rfl⟩
      intro b hb
      cases hl : finalizedBlocks s shard with
      | nil => rw [hl] at hb; simp at hb
      | cons k r =>
        rw [hl, List.head?_cons] at ih2
        have hk := (hf k ih2).2
        rw [hl] at hb ih1
        rcases List.mem_cons.mp hb with rfl | hb
        · exact hk
        · exact Nat.lt_trans ((List.pairwise_cons.mp ih1).1 b hb) hk
  · simp [finalizedBlocks, h0.1 shard, h0.2]

/-- Blocks 5 and 7 are finalized, in this order. -/
example : ((finalizedBlocks (run cfg start [enroll alice 7, .ext (.signed alice) (.confirmImportedSidechainBlock shard7 none
    ⟨5, hash1⟩), .ext (.signed alice) (.confirmImportedSidechainBlock shard7 (some ⟨5, hash1⟩) ⟨7, hash2⟩)]) shard7).map
      (·.number)) = [7, 5] := by decide +kernel

/-- C39: one operation leaves the finalized blocks of a shard as they are, or adds one block, which the call
names as its candidate; if there was a block before, the call names exactly this block as the ancestor. -/
theorem C39_linked (c : Cfg) (s0 s' : Chain) (ops : List Op) (h0 : FreshSidechain s0) (op : Op) (shard : ShardId)
    (h : exec c (run c s0 ops) op = .ok s') :
    finalizedBlocks s' shard = finalizedBlocks (run c s0 ops) shard ∨
    ∃ a anc cand, op = .ext (.signed a) (.confirmImportedSidechainBlock shard anc cand) ∧
      finalizedBlocks s' shard = cand :: finalizedBlocks (run c s0 ops) shard ∧
      ∀ k rest, finalizedBlocks (run c s0 ops) shard = k :: rest → anc = some k ∧ k.number < cand.number := by
  have hhead := (C39_growing c s0 ops h0 shard).2
  rcases sc_effect h shard with ⟨h1, _⟩ | ⟨a, e, l, i, anc, cand, hop, _, _, _, _, hf, h1, _⟩
  · exact .inl h1
  · refine .inr ⟨a, anc, cand, hop, h1, ?_⟩
    intro k rest hk
    rw [hk] at hhead
    exact hf k hhead

/-- Alice confirms the import of a block of shard 7. -/
def imported (a : AccountId) (anc : Option Confirmation) (n : Nat) (h : H256) : Op :=
  .ext (.signed a) (.confirmImportedSidechainBlock shard7 anc ⟨n, h⟩)

/-- Alice is first, Carol confirms in between; a wrong ancestor and an old number are refused. -/
def scHistory : List Op :=
  [enroll alice 7, enroll carol 7, imported alice none 5 hash1, imported carol (some ⟨5, hash1⟩) 6 hash2,
   imported alice (some ⟨5, hash2⟩) 6 hash2, imported alice (some ⟨5, hash1⟩) 5 hash2,
   imported alice (some ⟨5, hash1⟩) 7 hash2]

example : FreshSidechain start ∧ finalizedBlocks (run cfg start scHistory) shard7 = [⟨7, hash2⟩, ⟨5, hash1⟩] ∧
    (accepted cfg start scHistory).length = 5 :=
  ⟨⟨fun _ => rfl, rfl⟩, by decide +kernel, by decide +kernel⟩

/-! ### C40 Only the shard's primary validateer finalizes -/

/-- C40: who finalizes a block is an enclave of the shard and the first of its signers, before and after. -/
theorem C40_only_primary (c : Cfg) (s0 s' : Chain) (ops : List Op) (h0 : FreshBridge s0) (op : Op) (shard : ShardId)
    (h : exec c (run c s0 ops) op = .ok s')
    (hfin : finalizedBlocks s' shard ≠ finalizedBlocks (run c s0 ops) shard) :
    ∃ a anc cand, op = .ext (.signed a) (.confirmImportedSidechainBlock shard anc cand) ∧
      RightEnclave (run c s0 ops) shard a ∧ Primary (run c s0 ops) shard a ∧
      (statusOf s' shard).head?.map (·.signer) = some a := by
  obtain ⟨_, hnd, _⟩ := statusOk_run (c := c) (statusOk_fresh h0) ops shard
  generalize run c s0 ops = s at *
  rcases sc_effect h shard with ⟨h1, _⟩ | ⟨a, e, l, i, anc, cand, hop, ⟨_, h1, h2, h3, _⟩, hi, hia, hst, _⟩
  · exact absurd h1 hfin
  · refine ⟨a, anc, cand, hop, ⟨e, h1, h2⟩, ?_, ?_⟩
    · have : l = touchedList (statusOf s shard) ⟨a, e.mrEnclave, s.block⟩ := h3.trans (touchList_eq hnd)
      rw [this] at hi
      exact (touchedList_head (new := ⟨a, e.mrEnclave, s.block⟩) rfl).mp (by rw [hi, ← hia]; rfl)
    · rw [statusOf, hst, Option.getD_some, hi, ← hia]; rfl

/-- A block finalized by Alice, who is the first in the list. -/
example : (exec cfg (run cfg start [enroll alice 7, enroll carol 7]) (imported alice none 5 hash1)).isOk = true ∧
    finalizedBlocks (step cfg (run cfg start [enroll alice 7, enroll carol 7]) (imported alice none 5 hash1)) shard7 ≠
      finalizedBlocks (run cfg start [enroll alice 7, enroll carol 7]) shard7 := by decide +kernel

/-- C40: exactly when a confirmation succeeds, and what it does: the primary finalizes the candidate, everybody
else has no effect on finalization. -/
theorem C40_confirm_iff (c : Cfg) (s0 : Chain) (ops : List Op) (h0 : FreshBridge s0) (a : AccountId)
    (shard : ShardId) (anc : Option Confirmation) (cand : Confirmation) :
    ((∃ s', exec c (run c s0 ops) (.ext (.signed a) (.confirmImportedSidechainBlock shard anc cand)) = .ok s') ↔
      RightEnclave (run c s0 ops) shard a ∧
      (a ∈ (statusOf (run c s0 ops) shard).map (·.signer) ∨ (statusOf (run c s0 ops) shard).length < 10) ∧
      (Primary (run c s0 ops) shard a → Follows (run c s0 ops) shard anc cand)) ∧
    ∀ s', exec c (run c s0 ops) (.ext (.signed a) (.confirmImportedSidechainBlock shard anc cand)) = .ok s' →
      (Primary (run c s0 ops) shard a → s'.sc.latest shard = some cand ∧
        s'.sc.events = .finalized shard cand.number cand.hash a :: (run c s0 ops).sc.events) ∧
      (¬ Primary (run c s0 ops) shard a → s'.sc = (run c s0 ops).sc) := by
  obtain ⟨hlen, hnd, _⟩ := statusOk_run (c := c) (statusOk_fresh h0) ops shard
  generalize run c s0 ops = s at *
  have hl : ∀ fp, (touched s shard a fp s.block).length ≤ 10 ↔
      (a ∈ (statusOf s shard).map (·.signer) ∨ (statusOf s shard).length < 10) := by
    intro fp
    have h1 : touched s shard a fp s.block = touchedList (statusOf s shard) ⟨a, fp, s.block⟩ := touchList_eq hnd
    rw [h1, ← List.length_map (f := fun i : SignerStatus => i.signer), touchedList_signers]
    simp only
    split
    · rename_i hm; simp [hm, hlen]
    · rename_i hm
      simp only [hm, false_or, List.length_append, List.length_map, List.length_singleton]
      omega
  have hp : ∀ fp first, (touched s shard a fp s.block).head? = some first → (a = first.signer ↔ Primary s shard a) := by
    intro fp first hf
    have h1 : touched s shard a fp s.block = touchedList (statusOf s shard) ⟨a, fp, s.block⟩ := touchList_eq hnd
    rw [h1] at hf
    have h2 := touchedList_head (l := statusOf s shard) (new := ⟨a, fp, s.block⟩) (a := a) rfl
    rw [hf] at h2
    simp only [Option.map_some, Option.some.injEq] at h2
    rw [eq_comm]; exact h2
  refine ⟨⟨?_, ?_⟩, ?_⟩
  · rintro ⟨s', h⟩
    obtain ⟨a', e, l, first, ⟨ho, h1, h2, h3, h4⟩, hf, hr⟩ := confirmImported_ok.mp h
    simp only [Origin.signed.injEq] at ho
    subst ho
    subst h3
    refine ⟨⟨e, h1, h2⟩, (hl _).mp h4, fun hprim => ?_⟩
    rcases hr with ⟨hne, _⟩ | ⟨_, hlink, _⟩
    · exact absurd ((hp _ _ hf).mpr hprim) hne
    · exact hlink
  · rintro ⟨⟨e, h1, h2⟩, h3, h4⟩
    have hne : touched s shard a e.fingerprint s.block ≠ [] := by
      have h1 : touched s shard a e.fingerprint s.block = touchedList (statusOf s shard) ⟨a, e.fingerprint, s.block⟩ :=
        touchList_eq hnd
      rw [h1]; exact touchedList_ne_nil _ _
    have hf : ∃ first, (touched s shard a e.fingerprint s.block).head? = some first :=
      ⟨_, List.head?_eq_some_head hne⟩
    obtain ⟨first, hf⟩ := hf
    by_cases hprim : Primary s shard a
    · exact ⟨_, confirmImported_ok.mpr ⟨a, e, _, first, ⟨rfl, h1, h2, rfl, (hl _).mpr h3⟩, hf,
        .inr ⟨(hp _ _ hf).mpr hprim, h4 hprim, rfl⟩⟩⟩
    · exact ⟨_, confirmImported_ok.mpr ⟨a, e, _, first, ⟨rfl, h1, h2, rfl, (hl _).mpr h3⟩, hf,
        .inl ⟨fun h => hprim ((hp _ _ hf).mp h), rfl⟩⟩⟩
  · intro s' h
    obtain ⟨a', e, l, first, ⟨ho, h1, h2, h3, h4⟩, hf, hr⟩ := confirmImported_ok.mp h
    simp only [Origin.signed.injEq] at ho
    subst ho
    subst h3
    rcases hr with ⟨hne, rfl⟩ | ⟨he, _, rfl⟩
    · exact ⟨fun hprim => absurd ((hp _ _ hf).mpr hprim) hne, fun _ => rfl⟩
    · exact ⟨fun _ => ⟨by simp, rfl⟩, fun hn => absurd ((hp _ _ hf).mp he) hn⟩

example : FreshBridge start ∧ (statusOf (run cfg start scHistory) shard7).map (·.signer) = [alice, carol] ∧
    (run cfg start (scHistory ++ [imported carol none 9 hash1])).sc.latest shard7 = some ⟨7, hash2⟩ ∧
    (run cfg start (scHistory ++ [imported alice (some ⟨7, hash2⟩) 9 hash1])).sc.latest shard7 = some ⟨9, hash1⟩ :=
  ⟨⟨fun _ => rfl, fun _ => rfl, fun _ => rfl⟩, by decide +kernel, by decide +kernel, by decide +kernel⟩

/-! ### C41 Finalization can always continue -/

/-- The full claim: while an enclave of the shard is registered, some block can be finalized by a signed call. It
is false for the code (see `C41_refuted`). -/
def C41_Full : Prop :=
  ∀ (c : Cfg) (s0 : Chain) (ops : List Op) (shard : ShardId), FreshBridge s0 → FreshSidechain s0 →
    (∃ a, RightEnclave (run c s0 ops) shard a) →
    ∃ a k cand, Finalizes c (run c s0 ops) (.ext (.signed a) k) shard cand

/-- Alice was first, then registered different code; Carol still runs the right code but cannot finalize. -/
def stalled : List Op := [enroll alice 7, enroll carol 7, imported alice none 5 hash1, enroll alice 8]

theorem stalled_status : (statusOf (run cfg start stalled) shard7).map (·.signer) = [alice] := by decide +kernel

theorem C41_refuted : ¬ C41_Full := by
  intro h
  have hfresh : FreshBridge start := ⟨fun _ => rfl, fun _ => rfl, fun _ => rfl⟩
  have hr : RightEnclave (run cfg start stalled) shard7 carol := by
    have : ((run cfg start stalled).tx.sovereign carol).map (·.mrEnclave) =
        some (fingerprintInEffect (run cfg start stalled) shard7 (run cfg start stalled).block) := by decide +kernel
    rw [Option.map_eq_some_iff] at this
    exact this
  obtain ⟨a, k, cand, s', hx, hfin⟩ := h cfg start stalled shard7 hfresh ⟨fun _ => rfl, rfl⟩ ⟨_, hr⟩
  obtain ⟨b, _, _, hop, ⟨e, he, hm⟩, hprim, _⟩ := C40_only_primary cfg start s' stalled hfresh _ shard7 hx (by
    rw [hfin]; intro hc; exact absurd (congrArg List.length hc) (by simp))
  have hb : b = alice := by
    rcases hprim with h | h
    · rw [← List.map_eq_nil_iff (f := fun i : SignerStatus => i.signer), stalled_status] at h; simp at h
    · rw [← List.head?_map, stalled_status] at h
      simpa using h.symm
  subst hb
  have : ((run cfg start stalled).tx.sovereign alice).map (·.mrEnclave) ≠
        some (fingerprintInEffect (run cfg start stalled) shard7 (run cfg start stalled).block) := by decide +kernel
  rw [he] at this
  exact this (by simp [hm])

/-- C41, partial: while the first signer of the shard runs the right code (or, without signers, any enclave
does), this enclave can finalize any block that is newer than the latest. Missing: nobody can if the first
signer is gone. -/
theorem C41_primary_partial (c : Cfg) (s0 : Chain) (ops : List Op) (shard : ShardId) (a : AccountId)
    (cand : Confirmation) (h0 : FreshBridge s0) (hr : RightEnclave (run c s0 ops) shard a)
    (hp : Primary (run c s0 ops) shard a)
    (hnew : ∀ k, (run c s0 ops).sc.latest shard = some k → k.number < cand.number) :
    Finalizes c (run c s0 ops) (.ext (.signed a) (.confirmImportedSidechainBlock shard
      ((run c s0 ops).sc.latest shard) cand)) shard cand := by
  obtain ⟨hiff, heff⟩ := C40_confirm_iff c s0 ops h0 a shard ((run c s0 ops).sc.latest shard) cand
  have hroom : a ∈ (statusOf (run c s0 ops) shard).map (·.signer) ∨ (statusOf (run c s0 ops) shard).length < 10 := by
    rcases hp with hp | hp
    · right; rw [hp]; decide
    · left
      rw [← List.head?_map] at hp
      exact List.mem_of_mem_head? hp
  obtain ⟨s', hx⟩ := hiff.mpr ⟨hr, hroom, fun _ k hk => ⟨hk, hnew k hk⟩⟩
  refine ⟨s', hx, ?_⟩
  simp [finalizedBlocks, ((heff s' hx).1 hp).2, ScEvent.blockOf]

/-- The first in the list can always finalize the next block. -/
example : (run cfg start scHistory).sc.latest shard7 = some ⟨7, hash2⟩ ∧
    (exec cfg (run cfg start scHistory) (imported alice (some ⟨7, hash2⟩) 8 hash1)).isOk = true := by decide +kernel

/-- Root purges accounts from a shard. -/
def purges (shard : ShardId) (l : List AccountId) : List Op := l.map fun b => .ext .root (.purgeEnclave shard b)

theorem purges_effect (c : Cfg) (shard : ShardId) (l : List AccountId) (s : Chain) (hs : StatusOk s)
    (hsome : s.br.status shard ≠ none) :
    statusOf (run c s (purges shard l)) shard = (statusOf s shard).filter (fun i => i.signer ∉ l) ∧
    (run c s (purges shard l)).tx = s.tx ∧ (run c s (purges shard l)).sc = s.sc ∧
    (run c s (purges shard l)).block = s.block ∧ (run c s (purges shard l)).br.config = s.br.config := by
  induction l generalizing s with
  | nil => exact ⟨by simp [purges, run_nil, List.filter_eq_self.mpr], rfl, rfl, rfl, rfl⟩
  | cons b l ih =>
    obtain ⟨lst, hlst⟩ := Option.ne_none_iff_exists'.mp hsome
    have hx : exec c s (.ext .root (.purgeEnclave shard b)) = .ok _ := purgeEnclave_ok.mpr ⟨lst, rfl, hlst, by
      have := (hs shard).1
      simp only [statusOf, hlst, Option.getD_some] at this
      exact Nat.le_trans (List.length_filter_le _ _) this, rfl⟩
    have hrun : run c s (purges shard (b :: l)) = run c (step c s (.ext .root (.purgeEnclave shard b))) (purges shard l) := rfl
    rw [hrun, step_of_ok hx]
    obtain ⟨i1, i2, i3, i4, i5⟩ := ih _ (statusOk_exec hs hx) (by simp)
    refine ⟨?_, i2, i3, i4, i5⟩
    rw [i1]
    simp only [statusOf, hlst, upd_same, Option.getD_some, List.filter_filter]
    congr 1
    funext i
    by_cases h1 : i.signer = b <;> by_cases h2 : i.signer ∈ l <;> simp [h1, h2]

/-- C41, partial: root can always repair a stalled shard by purging signers; then every enclave of the shard can
finalize a next block. -/
theorem C41_after_purges_partial (c : Cfg) (s0 : Chain) (ops : List Op) (shard : ShardId) (a : AccountId)
    (cand : Confirmation) (h0 : FreshBridge s0) (hr : RightEnclave (run c s0 ops) shard a)
    (hnew : ∀ k, (run c s0 ops).sc.latest shard = some k → k.number < cand.number) :
    ∃ l, Finalizes c (run c s0 (ops ++ purges shard l)) (.ext (.signed a) (.confirmImportedSidechainBlock shard
      ((run c s0 ops).sc.latest shard) cand)) shard cand := by
  by_cases hsome : (run c s0 ops).br.status shard = none
  · refine ⟨[], ?_⟩
    rw [show ops ++ purges shard [] = ops by simp [purges]]
    exact C41_primary_partial c s0 ops shard a cand h0 hr (.inl (by simp [statusOf, hsome])) hnew
  · refine ⟨(statusOf (run c s0 ops) shard).map (·.signer), ?_⟩
    have heff := purges_effect c shard ((statusOf (run c s0 ops) shard).map (·.signer)) (run c s0 ops)
      (statusOk_run (statusOk_fresh h0) ops) hsome
    rw [← run_append] at heff
    obtain ⟨h1, h2, h3, h4, h5⟩ := heff
    have hnil : statusOf (run c s0 (ops ++ purges shard ((statusOf (run c s0 ops) shard).map (·.signer)))) shard = [] := by
      rw [h1, List.filter_eq_nil_iff]
      intro i hi
      simp only [decide_not, Bool.not_eq_true', decide_eq_false_iff_not, Classical.not_not]
      exact List.mem_map.mpr ⟨i, hi, rfl⟩
    rw [← h3]
    refine C41_primary_partial c s0 _ shard a cand h0 ?_ (.inl hnil) (by rw [h3]; exact hnew)
    obtain ⟨e, he, hm⟩ := hr
    exact ⟨e, by rw [h2, he], by rw [hm, h4]; simp only [fingerprintInEffect, configInEffect, h5]⟩

example : FreshBridge start ∧
    (run cfg start (stalled ++ [imported carol (some ⟨5, hash1⟩) 6 hash2])).sc.latest shard7 = some ⟨5, hash1⟩ ∧
    (run cfg start (stalled ++ purges shard7 [alice, carol] ++ [imported carol (some ⟨5, hash1⟩) 6 hash2])).sc.latest shard7 =
      some ⟨6, hash2⟩ :=
  ⟨⟨fun _ => rfl, fun _ => rfl, fun _ => rfl⟩, by decide +kernel, by decide +kernel⟩

/-! ### C42 Sidechain confirmation never panics -/

/-- C42: a confirmation never panics, in any state. -/
theorem C42_no_panic (c : Cfg) (s : Chain) (o : Origin) (shard : ShardId) (anc : Option Confirmation)
    (cand : Confirmation) : exec c s (.ext o (.confirmImportedSidechainBlock shard anc cand)) ≠ .error .panic := by
  intro h
  simp only [exec, dispatch, confirmImportedSidechainBlock, bind_eq_error] at h
  rcases h with h | ⟨a, _, h | ⟨⟨e, l, s1⟩, hg, h | ⟨first, _, h⟩⟩⟩
  · cases o <;> simp [ensureSigned] at h
  · simp only [getSovereignEnclaveAndTouchShard, Teerex.getSovereignEnclave, touchShard, bind_eq_error, okOr_eq_error,
      ensure_eq_error, reduceCtorEq, and_false, exists_false, or_self] at h
  · obtain ⟨_, _, rfl, _, _⟩ := getSovereign_ok.mp hg
    simp only [okOr_eq_error, List.head?_eq_none_iff, and_true] at h
    unfold touched touchList at h
    split at h
    · rename_i i hi
      have := congrArg List.length h
      simp only [List.length_set, List.length_nil, List.length_eq_zero_iff] at this
      rw [this] at hi
      simp at hi
    · simp at h
  · split at h
    · simp at h
    · simp only [bind_eq_error, reduceCtorEq, and_false, exists_false, or_false] at h
      split at h
      · simp [bind_eq_error] at h
      · simp [pure, Except.pure] at h

example : (exec cfg (run cfg start (scHistory ++ purges shard7 [alice, carol])) (imported carol none 9 hash1)).isOk = false ∧
    (run cfg start (scHistory ++ purges shard7 [alice, carol])).br.status shard7 = some [] := by decide +kernel

end Verif
