import Verif.Props.LastActivity
import Verif.Props.Sidechain
import Verif.Spec.Succession

/-!
# The signers of a shard are ordered by the time they joined: C175
-/

namespace Verif

open Demo EnclaveBridge

theorem Joined.unique {shard : ShardId} {acc : List (Chain × Op)} {a : AccountId} {n m : Nat}
    (h : Joined shard acc a n) (h' : Joined shard acc a m) : n = m := by
  have key : ∀ {n m}, Joined shard acc a n → Joined shard acc a m → ¬ n < m := by
    rintro n m ⟨⟨p, hp, ha⟩, h2, _⟩ ⟨_, _, h3⟩ hlt
    obtain ⟨j, r, h4, _, h5, h6⟩ := h3 n p hlt hp ha
    exact h2 j r h4 h5 h6
  have h1 := key h h'
  have h2 := key h' h
  omega

theorem Joined.lt {shard : ShardId} {acc : List (Chain × Op)} {a : AccountId} {n : Nat} (h : Joined shard acc a n) :
    n < acc.length := by
  obtain ⟨⟨p, hp, _⟩, _⟩ := h
  exact (List.getElem?_eq_some_iff.mp hp).1

/-- Somebody who was active and was not purged after that joined at some point. -/
theorem joined_of_open {shard : ShardId} {acc : List (Chain × Op)} {a : AccountId} : ∀ (n : Nat) (p : Chain × Op),
    acc[n]? = some p → ActsIn shard a p → (∀ m q, n < m → acc[m]? = some q → ¬ Purges shard a q.2) →
    ∃ n, Joined shard acc a n := by
  intro n
  induction n using Nat.strongRecOn with
  | _ n ih =>
    intro p hp ha hn
    by_cases hex : ∃ m q, m < n ∧ acc[m]? = some q ∧ ActsIn shard a q ∧ ∀ j r, m < j → acc[j]? = some r → ¬ Purges shard a r.2
    · obtain ⟨m, q, h1, h2, h3, h4⟩ := hex
      exact ih m h1 q h2 h3 h4
    · refine ⟨n, ⟨p, hp, ha⟩, hn, fun m q hm hq hact => ?_⟩
      refine Classical.byContradiction fun hno => hex ⟨m, q, hm, hq, hact, fun j r hj hr hpu => hno ⟨j, r, hj, ?_, hr, hpu⟩⟩
      by_cases h1 : n < j
      · exact absurd hpu (hn j r h1 hr)
      · by_cases h2 : j = n
        · subst h2
          rw [hp] at hr
          obtain rfl := Option.some.inj hr
          obtain ⟨k, e, h3, _⟩ := ha
          unfold Purges at hpu
          rw [hpu] at h3
          cases h3
        · omega

theorem getElem?_snoc {α : Type} {l : List α} {x y : α} {n : Nat} :
    (l ++ [x])[n]? = some y ↔ l[n]? = some y ∨ (n = l.length ∧ x = y) := by
  rw [List.getElem?_append]
  split
  · rename_i h
    constructor
    · exact .inl
    · rintro (h1 | ⟨h1, _⟩)
      · exact h1
      · omega
  · rename_i h
    constructor
    · intro h1
      right
      rw [List.getElem?_singleton] at h1
      split at h1
      · rename_i h2
        exact ⟨by omega, Option.some.inj h1⟩
      · cases h1
    · rintro (h1 | ⟨rfl, rfl⟩)
      · have := (List.getElem?_eq_some_iff.mp h1).1
        omega
      · simp

/-- One more operation that neither purges the account nor is its first activity. -/
theorem joined_snoc {shard : ShardId} {acc : List (Chain × Op)} {x : Chain × Op} {a : AccountId} {n : Nat}
    (hp : ¬ Purges shard a x.2) (ha : ActsIn shard a x → ∃ m, Joined shard acc a m) :
    Joined shard (acc ++ [x]) a n ↔ Joined shard acc a n := by
  constructor
  · intro h
    have hl := h.lt
    obtain ⟨⟨p, h1, h2⟩, h3, h4⟩ := h
    rcases getElem?_snoc.mp h1 with h1 | ⟨rfl, rfl⟩
    · refine ⟨⟨p, h1, h2⟩, fun m q hm hq => h3 m q hm (getElem?_snoc.mpr (.inl hq)), fun m q hm hq hact => ?_⟩
      obtain ⟨j, r, h5, h6, h7, h8⟩ := h4 m q hm (getElem?_snoc.mpr (.inl hq)) hact
      refine ⟨j, r, h5, h6, ?_, h8⟩
      rcases getElem?_snoc.mp h7 with h7 | ⟨h7, _⟩
      · exact h7
      · have := (List.getElem?_eq_some_iff.mp h1).1
        omega
    · exfalso
      obtain ⟨m, hm⟩ := ha h2
      obtain ⟨⟨q, h5, h6⟩, h7, _⟩ := hm
      have hlt := (List.getElem?_eq_some_iff.mp h5).1
      obtain ⟨j, r, h8, h9, h10, h11⟩ := h4 m q hlt (getElem?_snoc.mpr (.inl h5)) h6
      rcases getElem?_snoc.mp h10 with h10 | ⟨h10, _⟩
      · exact h7 j r h8 h10 h11
      · omega
  · intro h
    have hl := h.lt
    obtain ⟨⟨p, h1, h2⟩, h3, h4⟩ := h
    refine ⟨⟨p, getElem?_snoc.mpr (.inl h1), h2⟩, fun m q hm hq => ?_, fun m q hm hq hact => ?_⟩
    · rcases getElem?_snoc.mp hq with hq | ⟨_, rfl⟩
      · exact h3 m q hm hq
      · exact hp
    · rcases getElem?_snoc.mp hq with hq | ⟨h5, _⟩
      · obtain ⟨j, r, h5, h6, h7, h8⟩ := h4 m q hm hq hact
        exact ⟨j, r, h5, h6, getElem?_snoc.mpr (.inl h7), h8⟩
      · omega

/-- The first activity of an account (since its last purge). -/
theorem joined_first {shard : ShardId} {acc : List (Chain × Op)} {x : Chain × Op} {a : AccountId}
    (ha : ActsIn shard a x) (hn : ¬ ∃ m, Joined shard acc a m) : Joined shard (acc ++ [x]) a acc.length := by
  refine ⟨⟨x, getElem?_snoc.mpr (.inr ⟨rfl, rfl⟩), ha⟩, fun m q hm hq => ?_, fun m q hm hq hact => ?_⟩
  · have := (List.getElem?_eq_some_iff.mp hq).1
    simp at this
    omega
  · rcases getElem?_snoc.mp hq with hq | ⟨h5, _⟩
    · refine Classical.byContradiction fun hno => hn (joined_of_open m q hq hact fun j r hj hr hpu => hno ⟨j, r, hj, ?_, ?_, hpu⟩)
      · exact (List.getElem?_eq_some_iff.mp hr).1
      · exact getElem?_snoc.mpr (.inl hr)
    · omega

/-- After a purge nobody has joined. -/
theorem joined_purged {shard : ShardId} {acc : List (Chain × Op)} {x : Chain × Op} {a : AccountId}
    (hp : Purges shard a x.2) (n : Nat) : ¬ Joined shard (acc ++ [x]) a n := by
  intro h
  have hl := h.lt
  obtain ⟨⟨p, h1, h2⟩, h3, _⟩ := h
  rcases getElem?_snoc.mp h1 with h1 | ⟨rfl, rfl⟩
  · exact h3 acc.length x (List.getElem?_eq_some_iff.mp h1).1 (getElem?_snoc.mpr (.inr ⟨rfl, rfl⟩)) hp
  · obtain ⟨k, e, h4, _⟩ := h2
    unfold Purges at hp
    rw [hp] at h4
    cases h4

/-- What an operation does to the signers of a shard. -/
theorem signers_of_active {s s' : Chain} {x shard : ShardId} {b : AccountId} {e : SgxEnclave} {k : Call}
    (he : s.tx.sovereign b = some e) (hk : k.activeIn e = some x)
    (hs : s'.br.status = upd s.br.status x (some (touched s x b e.fingerprint s.block))) :
    (∃ a i, ActsIn shard a (s, .ext (.signed b) k) ∧ i.signer = a ∧ statusOf s' shard = touchList (statusOf s shard) i) ∨
    (∃ a, Purges shard a (.ext (.signed b) k) ∧ signersOf s' shard = (signersOf s shard).filter (fun y => y ≠ a)) ∨
    ((∀ a, ¬ ActsIn shard a (s, .ext (.signed b) k) ∧ ¬ Purges shard a (.ext (.signed b) k)) ∧
      statusOf s' shard = statusOf s shard) := by
  by_cases hx : shard = x
  · subst hx
    refine .inl ⟨b, ⟨b, e.mrEnclave, s.block⟩, ⟨k, e, rfl, he, hk⟩, rfl, ?_⟩
    unfold statusOf
    rw [hs, upd_same]
    rfl
  · refine .inr (.inr ⟨fun a => ⟨?_, fun h => by cases h⟩, ?_⟩)
    · rintro ⟨k', e', h1, h2, h3⟩
      cases h1
      simp only at h2
      rw [he] at h2
      obtain rfl := Option.some.inj h2
      rw [hk] at h3
      exact hx (Option.some.inj h3).symm
    · unfold statusOf
      rw [hs, upd_ne _ _ hx]

theorem signers_same {s s' : Chain} {shard : ShardId} {op : Op} (h : ∀ b k e, op = .ext (.signed b) k → k.activeIn e = none)
    (h' : ∀ x b, op ≠ .ext .root (.purgeEnclave x b)) (hs : s'.br.status = s.br.status) :
    (∃ a i, ActsIn shard a (s, op) ∧ i.signer = a ∧ statusOf s' shard = touchList (statusOf s shard) i) ∨
    (∃ a, Purges shard a op ∧ signersOf s' shard = (signersOf s shard).filter (fun y => y ≠ a)) ∨
    ((∀ a, ¬ ActsIn shard a (s, op) ∧ ¬ Purges shard a op) ∧ statusOf s' shard = statusOf s shard) := by
  refine .inr (.inr ⟨fun a => ⟨?_, h' _ _⟩, by unfold statusOf; rw [hs]⟩)
  rintro ⟨k', e', h1, h2, h3⟩
  rw [h _ _ e' h1] at h3
  cases h3

theorem signers_effect {c : Cfg} {s s' : Chain} {op : Op} (h : exec c s op = .ok s') (shard : ShardId) :
    (∃ a i, ActsIn shard a (s, op) ∧ i.signer = a ∧ statusOf s' shard = touchList (statusOf s shard) i) ∨
    (∃ a, Purges shard a op ∧ signersOf s' shard = (signersOf s shard).filter (fun y => y ≠ a)) ∨
    ((∀ a, ¬ ActsIn shard a (s, op) ∧ ¬ Purges shard a op) ∧ statusOf s' shard = statusOf s shard) := by
  by_cases hp : Part.bridge ∈ op.parts
  · cases op with
    | ext o k =>
      cases k with
      | invoke x cy =>
        obtain ⟨b, rfl, rfl⟩ := (invoke_ok (cy := cy)).mp h
        exact signers_same (fun _ _ _ h => by cases h; rfl) (fun _ _ h => by cases h) rfl
      | confirmProcessedParentchainBlock =>
        obtain ⟨b, e, l, ⟨rfl, h1, h2, rfl, h4⟩, rfl⟩ := confirmProcessed_ok.mp h
        exact signers_of_active h1 rfl rfl
      | shieldFunds =>
        obtain ⟨b, _, rfl, _, rfl⟩ := shieldFunds_ok.mp h
        exact signers_same (fun _ _ _ h => by cases h; rfl) (fun _ _ h => by cases h) rfl
      | unshieldFunds =>
        obtain ⟨b, e, l, ⟨rfl, h1, h2, rfl, h4⟩, (⟨_, _, _, _, _, rfl⟩ | ⟨_, _, _, _, rfl⟩)⟩ := unshieldFunds_ok.mp h <;>
        exact signers_of_active h1 rfl rfl
      | publishHash =>
        obtain ⟨b, e, l, rfl, h1, rfl, h4, _, _, rfl⟩ := publishHash_ok.mp h
        exact signers_of_active h1 rfl rfl
      | updateShardConfig =>
        rcases updateShardConfig_ok.mp h with ⟨rfl, rfl⟩ | ⟨b, e, l, rfl, h1, _, rfl, h4, rfl⟩
        · exact signers_same (fun _ _ _ h => by cases h) (fun _ _ h => by cases h) rfl
        · exact signers_of_active h1 rfl rfl
      | purgeEnclave x b =>
        obtain ⟨l, rfl, h1, h2, rfl⟩ := purgeEnclave_ok.mp h
        right
        by_cases hx : x = shard
        · subst hx
          refine .inl ⟨b, rfl, ?_⟩
          have hst : statusOf s x = l := by simp [statusOf, h1]
          unfold signersOf
          rw [hst]
          simp only [statusOf, upd_same, Option.getD_some]
          rw [List.filter_map]
          rfl
        · refine .inr ⟨fun a => ⟨?_, fun hp => ?_⟩, by simp [statusOf, upd, Ne.symm hx]⟩
          · rintro ⟨_, _, h3, _⟩
            cases h3
          · unfold Purges at hp
            cases hp
            exact hx rfl
      | confirmImportedSidechainBlock =>
        obtain ⟨b, e, l, first, ⟨rfl, h1, h2, rfl, h4⟩, _, (⟨_, rfl⟩ | ⟨_, _, rfl⟩)⟩ := Sidechain.confirmImported_ok.mp h <;>
        exact signers_of_active h1 rfl rfl
      | claims k => cases k <;> simp [Op.parts, Call.parts] at hp
      | _ => simp [Op.parts, Call.parts] at hp
    | _ => simp [Op.parts] at hp
  · refine signers_same (fun b k e ho => ?_) (fun x b ho => ?_) (by rw [br_frame h hp])
    · subst ho
      cases k <;> first | rfl | exact absurd (by simp [Op.parts, Call.parts]) hp
    · subst ho
      exact absurd (by simp [Op.parts, Call.parts]) hp

/-- C175: after every history that starts without shards, exactly those accounts are in the status of a shard that joined it
(and were not purged since then), and they are listed in the order in which they joined. No later activity and no renewal
changes the order. -/
theorem C175_order (c : Cfg) (s0 : Chain) (ops : List Op) (shard : ShardId) (h0 : FreshBridge s0) :
    (∀ a, a ∈ signersOf (run c s0 ops) shard ↔ ∃ n, Joined shard (accepted c s0 ops) a n) ∧
    (signersOf (run c s0 ops) shard).Pairwise fun a b => ∃ n m, Joined shard (accepted c s0 ops) a n ∧
      Joined shard (accepted c s0 ops) b m ∧ n < m := by
  refine history_induction (c := c) (s0 := s0) (P := fun st acc =>
    (∀ a, a ∈ signersOf st shard ↔ ∃ n, Joined shard acc a n) ∧
    (signersOf st shard).Pairwise fun a b => ∃ n m, Joined shard acc a n ∧ Joined shard acc b m ∧ n < m) ?_ ?_ ops
  · have hn : signersOf s0 shard = [] := by simp [signersOf, statusOf, h0.1 shard]
    rw [hn]
    refine ⟨fun a => ⟨fun h => by simp at h, ?_⟩, .nil⟩
    rintro ⟨n, ⟨p, hp, _⟩, _⟩
    simp at hp
  · rintro s s' op acc ⟨ih1, ih2⟩ hx
    have hnd : (signersOf s shard).Nodup := ih2.imp fun {a b} ⟨n, m, h1, h2, h3⟩ hab => by
      subst hab
      have := h1.unique h2
      omega
    rcases signers_effect hx shard with ⟨a, i, ha, hi, hs⟩ | ⟨a, hp, hs⟩ | ⟨hn, hs⟩
    · have hpu : ∀ b, ¬ Purges shard b op := by
        intro b hb
        obtain ⟨k, e, h1, _⟩ := ha
        unfold Purges at hb
        simp only at h1
        rw [hb] at h1
        cases h1
      have hsg : signersOf s' shard = if a ∈ signersOf s shard then signersOf s shard else signersOf s shard ++ [a] := by
        unfold signersOf at hnd ⊢
        rw [hs, touchList_eq hnd]
        unfold touchedList
        rw [hi]
        split
        · rw [List.map_map]
          refine List.map_congr_left fun j _ => ?_
          simp only [Function.comp]
          split
          · rename_i h; rw [hi, h]
          · rfl
        · simp [hi]
      by_cases hm : a ∈ signersOf s shard
      · rw [hsg, if_pos hm]
        have hj : ∀ b n, Joined shard (acc ++ [(s, op)]) b n ↔ Joined shard acc b n := by
          intro b n
          refine joined_snoc (hpu b) fun hb => ?_
          obtain ⟨k, e, h1, _⟩ := ha
          obtain ⟨k', e', h2, _⟩ := hb
          simp only at h1 h2
          rw [h1] at h2
          cases h2
          exact (ih1 a).mp hm
        refine ⟨fun b => ?_, ih2.imp fun ⟨n, m, h1, h2, h3⟩ => ⟨n, m, (hj _ _).mpr h1, (hj _ _).mpr h2, h3⟩⟩
        rw [ih1 b]
        exact ⟨fun ⟨n, h⟩ => ⟨n, (hj _ _).mpr h⟩, fun ⟨n, h⟩ => ⟨n, (hj _ _).mp h⟩⟩
      · rw [hsg, if_neg hm]
        have hj : ∀ b n, b ≠ a → (Joined shard (acc ++ [(s, op)]) b n ↔ Joined shard acc b n) := by
          intro b n hne
          refine joined_snoc (hpu b) fun hb => ?_
          obtain ⟨k, e, h1, _⟩ := ha
          obtain ⟨k', e', h2, _⟩ := hb
          simp only at h1 h2
          rw [h1] at h2
          cases h2
          exact absurd rfl hne
        have hf := joined_first ha (fun h => hm ((ih1 a).mpr h))
        have hne : ∀ b ∈ signersOf s shard, b ≠ a := fun b hb h => hm (h ▸ hb)
        constructor
        · intro b
          rw [List.mem_append, List.mem_singleton]
          constructor
          · rintro (h | rfl)
            · obtain ⟨n, h1⟩ := (ih1 b).mp h
              exact ⟨n, (hj b n (hne b h)).mpr h1⟩
            · exact ⟨_, hf⟩
          · rintro ⟨n, h⟩
            by_cases hb : b = a
            · exact .inr hb
            · exact .inl ((ih1 b).mpr ⟨n, (hj b n hb).mp h⟩)
        · rw [List.pairwise_append]
          refine ⟨?_, List.pairwise_singleton _ _, fun b hb x hx => ?_⟩
          · refine List.Pairwise.imp_of_mem (fun {b d} hb hd ⟨n, m, h1, h2, h3⟩ => ?_) ih2
            exact ⟨n, m, (hj b n (hne b hb)).mpr h1, (hj d m (hne d hd)).mpr h2, h3⟩
          · rw [List.mem_singleton] at hx
            subst hx
            obtain ⟨n, h1⟩ := (ih1 b).mp hb
            exact ⟨n, _, (hj b n (hne b hb)).mpr h1, hf, h1.lt⟩
    · have hj : ∀ b n, b ≠ a → (Joined shard (acc ++ [(s, op)]) b n ↔ Joined shard acc b n) := by
        intro b n hne
        unfold Purges at hp
        refine joined_snoc (fun h => ?_) (fun ⟨k, e, h, _⟩ => ?_)
        · unfold Purges at h
          simp only at h
          rw [hp] at h
          cases h
          exact hne rfl
        · simp only at h
          rw [hp] at h
          cases h
      rw [hs]
      constructor
      · intro b
        rw [List.mem_filter]
        constructor
        · rintro ⟨h1, h2⟩
          obtain ⟨n, h3⟩ := (ih1 b).mp h1
          exact ⟨n, (hj b n (by simpa using h2)).mpr h3⟩
        · rintro ⟨n, h⟩
          by_cases hb : b = a
          · subst hb
            exact absurd h (joined_purged hp n)
          · exact ⟨(ih1 b).mpr ⟨n, (hj b n hb).mp h⟩, by simpa using hb⟩
      · refine List.Pairwise.imp_of_mem (fun {b d} hb hd ⟨n, m, h1, h2, h3⟩ => ?_) (ih2.filter _)
        exact ⟨n, m, (hj b n (by simpa using (List.mem_filter.mp hb).2)).mpr h1,
          (hj d m (by simpa using (List.mem_filter.mp hd).2)).mpr h2, h3⟩
    · have hj : ∀ b n, Joined shard (acc ++ [(s, op)]) b n ↔ Joined shard acc b n := fun b n =>
        joined_snoc (hn b).2 (fun h => absurd h (hn b).1)
      have hsg : signersOf s' shard = signersOf s shard := by unfold signersOf; rw [hs]
      rw [hsg]
      refine ⟨fun b => ?_, ih2.imp fun ⟨n, m, h1, h2, h3⟩ => ⟨n, m, (hj _ _).mpr h1, (hj _ _).mpr h2, h3⟩⟩
      rw [ih1 b]
      exact ⟨fun ⟨n, h⟩ => ⟨n, (hj _ _).mpr h⟩, fun ⟨n, h⟩ => ⟨n, (hj _ _).mp h⟩⟩

/-- C175: so the enclave that finalises a sidechain block is the one that joined the shard before all others. -/
theorem C175_finalizer (c : Cfg) (s0 s' : Chain) (ops : List Op) (op : Op) (shard : ShardId) (h0 : FreshBridge s0)
    (h : exec c (run c s0 ops) op = .ok s') (hfin : finalizedBlocks s' shard ≠ finalizedBlocks (run c s0 ops) shard) :
    ∃ a k n, op = .ext (.signed a) k ∧ Joined shard (accepted c s0 (ops ++ [op])) a n ∧
      ∀ b m, b ≠ a → Joined shard (accepted c s0 (ops ++ [op])) b m → n < m := by
  obtain ⟨a, anc, cand, rfl, _, _, hh⟩ := C40_only_primary c s0 s' ops h0 op shard h hfin
  obtain ⟨h1, h2⟩ := C175_order c s0 (ops ++ [.ext (.signed a) (.confirmImportedSidechainBlock shard anc cand)]) shard h0
  have hr : run c s0 (ops ++ [.ext (.signed a) (.confirmImportedSidechainBlock shard anc cand)]) = s' := by
    rw [run_snoc, step_of_ok h]
  rw [hr] at h1 h2
  have hl : signersOf s' shard = a :: (signersOf s' shard).tail := by
    unfold signersOf
    cases hs : statusOf s' shard with
    | nil => rw [hs] at hh; simp at hh
    | cons i l =>
      rw [hs] at hh
      simp only [List.head?_cons, Option.map_some, Option.some.injEq] at hh
      simp [hh]
  rw [hl] at h1 h2
  obtain ⟨n, hn⟩ := (h1 a).mp (by simp)
  refine ⟨a, _, n, rfl, hn, fun b m hb hm => ?_⟩
  have hmem : b ∈ (signersOf s' shard).tail := by
    rcases List.mem_cons.mp ((h1 b).mpr ⟨m, hm⟩) with h | h
    · exact absurd h hb
    · exact h
  obtain ⟨n', m', h3, h4, h5⟩ := (List.pairwise_cons.mp h2).1 b hmem
  rw [hn.unique h3, hm.unique h4]
  exact h5

theorem head_touchList (l : List SignerStatus) (new : SignerStatus) :
    (touchList l new).head?.map (·.signer) = some ((l.map (·.signer)).head?.getD new.signer) := by
  unfold touchList
  cases l with
  | nil => simp
  | cons x l =>
    rw [List.findIdx?_cons]
    by_cases hx : x.signer = new.signer
    · simp [hx]
    · simp only [hx, decide_false, Bool.false_eq_true, if_false]
      cases List.findIdx? (fun i => decide (i.signer = new.signer)) l <;> simp

/-- C175: the latest finalised block of a shard is the one in the last accepted confirmation by the account that was the first in the
list then, that is, by `C175_order`, by the one that had joined first. Confirmations by others have no influence. -/
theorem C175_latest (c : Cfg) (s0 : Chain) (ops : List Op) (shard : ShardId) :
    (run c s0 ops).sc.latest shard = (lastWrittenIn (writesLatest shard) (accepted c s0 ops)).getD (s0.sc.latest shard) := by
  refine last_written_in c s0 ops (fun s => s.sc.latest shard) _ fun s s' op h => ?_
  by_cases hop : ∃ o anc cand, op = .ext o (.confirmImportedSidechainBlock shard anc cand)
  · obtain ⟨o, anc, cand, rfl⟩ := hop
    obtain ⟨a, e, l, first, ⟨rfl, h1, h2, rfl, h4⟩, hf, hor⟩ := Sidechain.confirmImported_ok.mp h
    have hhead : first.signer = (signersOf s shard).head?.getD a := by
      have := head_touchList (statusOf s shard) ⟨a, e.fingerprint, s.block⟩
      unfold touched at hf
      unfold statusOf at this
      rw [hf] at this
      simpa [signersOf, statusOf] using this
    rcases hor with ⟨hn, rfl⟩ | ⟨ha, hl, rfl⟩
    · left
      rw [hhead] at hn
      refine ⟨?_, rfl⟩
      unfold writesLatest
      exact if_neg fun h => hn h.2.symm
    · right
      rw [hhead] at ha
      unfold writesLatest
      simp only [upd_same]
      exact if_pos ⟨trivial, ha.symm⟩
  · left
    constructor
    · unfold writesLatest
      split
      · rename_i s1 a x anc cand heq
        obtain ⟨_, rfl⟩ := Prod.mk.inj heq
        rw [if_neg]
        rintro ⟨rfl, _⟩
        exact hop ⟨_, _, _, rfl⟩
      · rfl
    · rcases sc_effect h shard with h | ⟨a, e, l, i, anc, cand, rfl, _⟩
      · exact h.2
      · exact absurd ⟨_, anc, cand, rfl⟩ hop

/-! ### Example -/

/-- Alice and Bob join a shard, Alice is purged and comes back: now Bob is first, and finalises. -/
def successionOps : List Op :=
  [enroll alice 7, enroll bob 7, .ext (.signed alice) (.confirmProcessedParentchainBlock shard7 hash1 5 hash2),
   .ext (.signed bob) (.confirmProcessedParentchainBlock shard7 hash1 5 hash2), .ext .root (.purgeEnclave shard7 alice),
   .ext (.signed alice) (.confirmProcessedParentchainBlock shard7 hash1 5 hash2),
   .ext (.signed bob) (.confirmProcessedParentchainBlock shard7 hash1 5 hash2)]

example : FreshBridge start ∧ signersOf (run cfg start successionOps) shard7 = [bob, alice] ∧
    (accepted cfg start successionOps).length = 7 ∧
    (∃ s', exec cfg (run cfg start successionOps) (.ext (.signed bob) (.confirmImportedSidechainBlock shard7 none ⟨5, hash1⟩)) = .ok s' ∧
      finalizedBlocks s' shard7 ≠ finalizedBlocks (run cfg start successionOps) shard7) := by
  refine ⟨⟨fun _ => rfl, fun _ => rfl, fun _ => rfl⟩, by decide +kernel, by decide +kernel, ?_⟩
  refine ⟨_, exec_ok_of_isOk (by decide +kernel), ?_⟩
  decide +kernel

/-- Of three accepted confirmations, two are by Bob, who is the first; the last of these counts. -/
example : lastWrittenIn (writesLatest shard7) (accepted cfg start (successionOps ++
    [.ext (.signed bob) (.confirmImportedSidechainBlock shard7 none ⟨5, hash1⟩),
     .ext (.signed bob) (.confirmImportedSidechainBlock shard7 (some ⟨5, hash1⟩) ⟨6, hash2⟩),
     .ext (.signed alice) (.confirmImportedSidechainBlock shard7 none ⟨8, hash1⟩)])) = some (some ⟨6, hash2⟩) ∧
    (accepted cfg start (successionOps ++
    [.ext (.signed bob) (.confirmImportedSidechainBlock shard7 none ⟨5, hash1⟩),
     .ext (.signed bob) (.confirmImportedSidechainBlock shard7 (some ⟨5, hash1⟩) ⟨6, hash2⟩),
     .ext (.signed alice) (.confirmImportedSidechainBlock shard7 none ⟨8, hash1⟩)])).length = 10 := by
  decide +kernel

end Verif
