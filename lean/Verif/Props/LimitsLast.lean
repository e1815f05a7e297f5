import Verif.Props.LimitsMore
import Verif.Props.Hinder
import Verif.Props.Confirmations
import Verif.Props.RawMigrations
import Verif.Props.Teerdays

/-!
# Where the last partial theorems stop

Continues `Verif.Props.LimitsMore`.
-/

namespace Verif

open Demo EnclaveBridge

/-! ### C07 -/

/-- C07: exactly which operation first puts a lock on money that is not there: a `bond_extra` of the account while its
free balance is below its bond. A slash aside, every other operation keeps the lock within the free balance. -/
theorem C07_sharp (c : Cfg) (s s' : Chain) (op : Op) (a : AccountId) (h0 : tdLock s a ≤ s.bal.free a)
    (hS : ¬ IsSlash a op) (hm : bondValue s a ≤ c.balMax) (h : exec c s op = .ok s') :
    tdLock s' a ≤ s'.bal.free a ↔
      ¬ ((∃ v, op = .ext (.signed a) (.bondExtra v)) ∧ s.bal.free a < bondValue s a) := by
  have hf := exec_free_covers h hS h0
  have good : (¬ ∃ v, op = .ext (.signed a) (.bondExtra v)) → tdLock s' a ≤ s'.bal.free a := by
    intro hne
    cases tdEffect h a with
    | same _ hv => obtain ⟨h1, h2, h3⟩ := view_same hv; rw [h3]; exact hf
    | updated _ hb hv => obtain ⟨h1, h2, h3⟩ := view_bond hv; rw [h3]; exact hf
    | bond _ hf' hb _ hv =>
      obtain ⟨h1, h2, h3⟩ := view_bond hv
      rw [h3, hf'] at *
      simp only
      split <;> omega
    | extra => exact absurd ⟨_, rfl⟩ hne
    | unbond _ _ hb hp _ _ _ hv => obtain ⟨h1, h2, h3⟩ := view_bond hv; rw [h3]; exact hf
    | withdraw _ hf' hp _ hv =>
      obtain ⟨h1, h2, h3⟩ := view_bond hv
      rw [h3, hf'] at *
      simp only
      omega
  by_cases hx : ∃ v, op = .ext (.signed a) (.bondExtra v)
  · obtain ⟨v, rfl⟩ := hx
    obtain ⟨a', b, ho, hp, he, hb, rfl⟩ := Teerdays.bondExtra_ok.mp h
    simp only [Origin.signed.injEq] at ho; subst ho
    have hv : bondValue s a = b.value := by simp [bondValue, hb]
    rw [hv] at hm ⊢
    simp only [Call.bondExtra.injEq, Op.ext.injEq, true_and, exists_eq', true_and]
    cases tdEffect h a with
    | extra _ hf' hb' hp _ hnew hv' =>
      obtain ⟨h1, h2, h3⟩ := view_bond hv'
      rw [h3, hf']
      rw [hb, Option.some.injEq] at hb'; subst hb'
      unfold satAdd at hnew
      simp only
      split <;> omega
    | same hno _ => exact absurd (.inr (.inl ⟨_, rfl⟩)) hno
  · exact ⟨fun _ hc => hx hc.1, fun _ => good hx⟩

/-- After bonding anew while an unlock is pending, the money can be sent away; the next `bond_extra` locks 1000 of 0. -/
example : tdLock (run cfg start (rebondHistory ++ [.ext (.signed alice) (.balTransfer bob 1000)])) alice ≤
      (run cfg start (rebondHistory ++ [.ext (.signed alice) (.balTransfer bob 1000)])).bal.free alice ∧
    (run cfg start (rebondHistory ++ [.ext (.signed alice) (.balTransfer bob 1000)])).bal.free alice <
      bondValue (run cfg start (rebondHistory ++ [.ext (.signed alice) (.balTransfer bob 1000)])) alice ∧
    bondValue (run cfg start (rebondHistory ++ [.ext (.signed alice) (.balTransfer bob 1000)])) alice ≤ cfg.balMax ∧
    (exec cfg (run cfg start (rebondHistory ++ [.ext (.signed alice) (.balTransfer bob 1000)]))
      (.ext (.signed alice) (.bondExtra 10))).isOk = true := by decide +kernel

/-! ### C134 -/

/-- The confirmation of a parentchain block (hash, root, number) of a shard by an account. -/
def confirmation (a : AccountId) (shard : ShardId) (b : H256 × H256 × Nat) : Op :=
  .ext (.signed a) (.confirmProcessedParentchainBlock shard b.1 b.2.2 b.2.1)

/-- C134: there is no order at all. Once an enclave can confirm a block of a shard, it can confirm any blocks in any
order, as many as it likes, whatever has been confirmed before. -/
theorem C134_sharp (c : Cfg) (s0 : Chain) (ops : List Op) (h0 : FreshBridge s0) (a : AccountId) (shard : ShardId)
    (b : H256 × H256 × Nat) (h : ∃ t, exec c (run c s0 ops) (confirmation a shard b) = .ok t)
    (l : List (H256 × H256 × Nat)) :
    (accepted c (run c s0 ops) (l.map (confirmation a shard))).map (·.2) = l.map (confirmation a shard) ∧
    confirmedBlocks (run c s0 (ops ++ l.map (confirmation a shard))) shard =
      l.reverse ++ confirmedBlocks (run c s0 ops) shard := by
  induction l generalizing ops b with
  | nil => simp [accepted]
  | cons x l ih =>
    obtain ⟨s', hs'⟩ := (C134_unchecked_partial c (run c s0 ops) (.signed a) shard b.1 x.1 b.2.1 x.2.1 b.2.2 x.2.2).mp h
    have hx : exec c (run c s0 ops) (confirmation a shard x) = .ok s' := hs'
    have hrun : run c s0 (ops ++ [confirmation a shard x]) = s' := by
      rw [run_append, run_cons, run_nil, step_of_ok hx]
    have hagain : ∃ t, exec c s' (confirmation a shard x) = .ok t :=
      C161_only_these c s0 ops h0 _ s' _ _ ⟨s', hx⟩ hx (by
        rintro ⟨a', ho, hc⟩
        simp only [Origin.signed.injEq] at ho; subst ho
        rcases hc with hc | (⟨_, _, _, hc⟩ | ⟨_, hc, _⟩) | ⟨b', k, hc, hne, _⟩
        · exact hc
        · simp [confirmation] at hc
        · simp [confirmation] at hc
        · simp only [confirmation, Op.ext.injEq, Origin.signed.injEq] at hc
          exact hne hc.1.symm)
    have hnext := ih (ops ++ [confirmation a shard x]) x (by rw [hrun]; exact hagain)
    rw [hrun] at hnext
    constructor
    · rw [List.map_cons, accepted_cons_ok hx, List.map_cons, hnext.1]
    · rw [List.map_cons, ← List.singleton_append, ← List.append_assoc, hnext.2]
      rcases C134_signed_partial c _ _ _ shard hx with hc | ⟨a', bh, n, root, ho, _, hc⟩
      · obtain ⟨a', e, l', _, rfl⟩ := confirmProcessed_ok.mp hx
        simp [confirmedBlocks, BrEvent.confirmation] at hc
      · simp only [confirmation, Op.ext.injEq, Origin.signed.injEq, Call.confirmProcessedParentchainBlock.injEq] at ho
        obtain ⟨-, -, rfl, rfl, rfl⟩ := ho
        rw [hc]; simp

example : FreshBridge start ∧ ∃ t, exec cfg (run cfg start backwards) (confirmation alice shard7 (hash1, hash2, 4)) = .ok t :=
  ⟨⟨fun _ => rfl, fun _ => rfl, fun _ => rfl⟩, _,
    exec_ok_of_isOk (op := confirmation alice shard7 (hash1, hash2, 4)) (by decide +kernel)⟩

/-! ### C135 -/

/-- C135: while an enclave of the shard is registered, exactly the number 2^64 - 1 ends the finalisation. -/
theorem C135_sharp (c : Cfg) (s0 : Chain) (ops : List Op) (shard : ShardId) (h0 : FreshBridge s0)
    (hr : ∃ a, RightEnclave (run c s0 ops) shard a) :
    (∃ more op cand, (∀ op ∈ more, op.fits64) ∧ op.fits64 ∧ Finalizes c (run c s0 (ops ++ more)) op shard cand) ↔
      ∀ k, (run c s0 ops).sc.latest shard = some k → k.number < u64Max := by
  constructor
  · rintro ⟨more, op, cand, h1, h2, s', hx, hfin⟩ k hl
    refine Nat.lt_of_not_le fun hk => ?_
    rw [run_append] at hx hfin
    have e1 := (C135_end c _ shard _ hl hk more h1).2
    have e2 := (C135_end c _ shard _ hl hk (more ++ [op]) (by
      intro x hx'
      rcases List.mem_append.mp hx' with hx' | hx'
      · exact h1 x hx'
      · rw [List.mem_singleton.mp hx']; exact h2)).2
    rw [run_snoc, step_of_ok hx] at e2
    rw [e2, e1] at hfin
    exact absurd (congrArg List.length hfin) (by simp)
  · intro hroom
    obtain ⟨a, ha⟩ := hr
    obtain ⟨more, cand, h1, h2, h3⟩ := C135_room_partial c s0 ops shard a h0 ha hroom
    exact ⟨more, _, cand, h2, (by exact h1), h3⟩

/-- An ended shard and one that is not. -/
example : FreshBridge start ∧ (∃ a, RightEnclave (run cfg start lastBlock) shard7 a) ∧
    (run cfg start lastBlock).sc.latest shard7 = some ⟨2 ^ 64 - 1, hash1⟩ ∧
    (∃ a, RightEnclave (run cfg start stalled) shard7 a) ∧ (run cfg start stalled).sc.latest shard7 = some ⟨5, hash1⟩ := by
  have h1 : ((run cfg start lastBlock).tx.sovereign carol).map (·.mrEnclave) =
      some (fingerprintInEffect (run cfg start lastBlock) shard7 (run cfg start lastBlock).block) := by decide +kernel
  have h2 : ((run cfg start stalled).tx.sovereign carol).map (·.mrEnclave) =
      some (fingerprintInEffect (run cfg start stalled) shard7 (run cfg start stalled).block) := by decide +kernel
  rw [Option.map_eq_some_iff] at h1 h2
  exact ⟨⟨fun _ => rfl, fun _ => rfl, fun _ => rfl⟩, ⟨_, h1⟩, by decide +kernel, ⟨_, h2⟩, by decide +kernel⟩

/-! ### C84 -/

/-- C84: exactly when it does no harm to run the second upgrade alone on a chain at version 0: there is nothing to remove
and the debug flag at its new place already is what the first upgrade makes of the old one. -/
theorem C84_sharp (s : Migrations.St) (h : s.version = 0) (l : List Bool) :
    migrateAll (false :: l) s = migrateAll (true :: false :: l) s ↔
      (∀ n, s.v0Registry n = none) ∧ (∀ a, s.v0Index a = none) ∧ s.v0Count = none ∧ s.v0AllowDebug = none ∧
        s.tx.allowDebug = false := by
  have e : migrateAll (true :: false :: l) s = { s with
      version := 2, tcbInfo := fun _ => none, v0AllowDebug := none, v0Count := none, v0Registry := fun _ => none,
      v0Index := fun _ => none, tx := { s.tx with allowDebug := s.v0AllowDebug.getD false } } := by
    have stay : ∀ (l : List Bool) (x : Migrations.St), x.version = 2 → migrateAll l x = x := by
      intro l x hv
      induction l with
      | nil => rfl
      | cons b l ih =>
        cases b
        · show migrateAll l (Migrations.v1ToV2 x) = _
          rw [(C84_versions_partial x).2 (by omega)]; exact ih
        · show migrateAll l (Migrations.v0ToV1 x) = _
          rw [(C84_versions_partial x).1 (by omega)]; exact ih
    have e1 : Migrations.v1ToV2 (Migrations.v0ToV1 s) = { s with
        version := 2, tcbInfo := fun _ => none, v0AllowDebug := none, v0Count := none, v0Registry := fun _ => none,
        v0Index := fun _ => none, tx := { s.tx with allowDebug := s.v0AllowDebug.getD false } } := by
      have e0 : Migrations.v0ToV1 s = { s with
          version := 1, v0AllowDebug := none, v0Count := none, v0Registry := fun _ => none,
          v0Index := fun _ => none, tx := { s.tx with allowDebug := s.v0AllowDebug.getD false } } := by
        unfold Migrations.v0ToV1; rw [if_neg (by omega)]
      rw [e0]
      rfl
    show migrateAll l (Migrations.v1ToV2 (Migrations.v0ToV1 s)) = _
    rw [e1]
    exact stay l _ rfl
  rw [C84_alone_partial s h l, e]
  obtain ⟨v, reg, cnt, idx, dbg, tcb, tx⟩ := s
  simp only [Migrations.St.mk.injEq, true_and]
  constructor
  · rintro ⟨rfl, rfl, rfl, rfl, h5⟩
    refine ⟨fun _ => rfl, fun _ => rfl, rfl, rfl, ?_⟩
    rw [h5]; rfl
  · rintro ⟨h1, h2, h3, h4, h5⟩
    refine ⟨funext h1, h3, funext h2, h4, ?_⟩
    obtain ⟨x⟩ := tx
    simp only at h5
    simp [h4, h5]

/-- A chain with old entries. -/
example : oldStorage.version = 0 ∧ (oldStorage.v0Registry 1).isSome = true := by decide +kernel

/-! ### C142 -/

open Scale RawMigrations

theorem filter_kill {r : Raw} {p k : Bytes} (hk : ¬ p <+: k) :
    ((r.kill k).filter fun e => p.isPrefixOf e.1) = r.filter fun e => p.isPrefixOf e.1 := by
  unfold Raw.kill
  rw [List.filter_filter]
  refine List.filter_congr fun e _ => ?_
  by_cases he : e.1 = k
  · have : p.isPrefixOf e.1 = false := by
      rw [he, ← Bool.not_eq_true, List.isPrefixOf_iff_prefix]; exact hk
    simp [this]
  · simp [he]

theorem filter_put {r : Raw} {p k v : Bytes} (hk : ¬ p <+: k) :
    ((r.put k v).filter fun e => p.isPrefixOf e.1) = r.filter fun e => p.isPrefixOf e.1 := by
  have : p.isPrefixOf k = false := by rw [← Bool.not_eq_true, List.isPrefixOf_iff_prefix]; exact hk
  rw [Raw.put, List.filter_cons_of_neg (by simp [this]), filter_kill hk]

theorem filter_clear {r : Raw} {p q : Bytes} (hk : ∀ k, q <+: k → ¬ p <+: k) :
    ((r.clear p).1.filter fun e => q.isPrefixOf e.1) = r.filter fun e => q.isPrefixOf e.1 := by
  unfold Raw.clear
  rw [List.filter_filter]
  refine List.filter_congr fun e _ => ?_
  by_cases he : q <+: e.1
  · have : p.isPrefixOf e.1 = false := by rw [← Bool.not_eq_true, List.isPrefixOf_iff_prefix]; exact hk _ he
    simp [this]
  · have : q.isPrefixOf e.1 = false := by rw [← Bool.not_eq_true, List.isPrefixOf_iff_prefix]; exact he
    simp [this]

/-- The keys under a prefix. -/
def Raw.under (r : Raw) (p : Bytes) : List Bytes := (r.filter fun e => p.isPrefixOf e.1).map (·.1)

theorem mem_under {r : Raw} {p k : Bytes} : k ∈ Raw.under r p ↔ p <+: k ∧ r.get k ≠ none := by
  unfold Raw.under Raw.get
  rw [List.mem_map]
  constructor
  · rintro ⟨e, he, rfl⟩
    rw [List.mem_filter, List.isPrefixOf_iff_prefix] at he
    refine ⟨he.2, ?_⟩
    simp only [ne_eq, Option.map_eq_none_iff, List.find?_eq_none]
    intro hn
    exact hn e he.1 (by simp)
  · rintro ⟨hp, hn⟩
    simp only [ne_eq, Option.map_eq_none_iff, List.find?_eq_none] at hn
    refine Classical.byContradiction fun hc => hn fun e he hek => hc ⟨e, ?_, by simpa using hek⟩
    have : e.1 = k := by simpa using hek
    rw [List.mem_filter, List.isPrefixOf_iff_prefix, this]
    exact ⟨he, hp⟩

/-- C142: exactly when the first upgrade changes no more entries than it declares writes: it has nothing to do, or one
of the three old values is not there, or the debug flag at its new place is already what it becomes. -/
theorem C142_sharp (h : KeyHash) (names : Scale.Pallet → Bytes) (apart : UpgradeApart h names) (r : Raw)
    (hr : (r.map (·.1)).Nodup) :
    EntriesDiffer (v0ToV1 h (names .teerex) r).2.writes r (v0ToV1 h (names .teerex) r).1 ↔
      1 ≤ version h (names .teerex) r ∨ r.get (oldDebugKey h (names .teerex)) = none ∨
      r.get (countKey h (names .teerex)) = none ∨
      r.get (debugKey h (names .teerex)) =
        some [if (r.get (oldDebugKey h (names .teerex))).bind List.head? = some 1 then 1 else 0] := by
  generalize hp : names .teerex = p
  by_cases hv : 1 ≤ version h p r
  · have e : v0ToV1 h p r = (r, ⟨1, 0⟩) := by unfold v0ToV1; rw [if_pos hv]
    rw [e]
    exact ⟨fun _ => .inl hv, fun _ => ⟨[], by simp, fun _ _ => rfl⟩⟩
  have hv0 : version h p r = 0 := by omega
  have ne (a b : String) (ha : a ∈ upgradeItems) (hb : b ∈ upgradeItems) (hab : a ≠ b) :
      h.twox128 (asciiBytes a) ≠ h.twox128 (asciiBytes b) := fun he => hab (apart.2.1 a ha b hb he)
  have kn (a b : String) (ha : a ∈ upgradeItems) (hb : b ∈ upgradeItems) (hab : a ≠ b) :
      itemPrefix h p (asciiBytes a) ≠ itemPrefix h p (asciiBytes b) := fun he =>
    ne a b ha hb hab (prefix_twox (r := []) (t := []) (by rw [he])).2.1
  have kd (a : String) (ha : a ∈ upgradeItems) : itemPrefix h p (asciiBytes a) ≠ debugKey h p := fun he =>
    apart.2.2 a ha .allowDebug (prefix_twox (r := []) (t := []) (by rw [he]; rfl)).2.1
  have un (a b : String) (ha : a ∈ upgradeItems) (hb : b ∈ upgradeItems) (hab : a ≠ b) :
      ¬ itemPrefix h p (asciiBytes a) <+: itemPrefix h p (asciiBytes b) := fun ⟨t, ht⟩ =>
    ne a b ha hb hab (prefix_twox (r := t) (t := []) (by rw [ht, List.append_nil])).2.1
  have ud (a : String) (ha : a ∈ upgradeItems) : ¬ itemPrefix h p (asciiBytes a) <+: debugKey h p := fun ⟨t, ht⟩ =>
    apart.2.2 a ha .allowDebug (prefix_twox (r := t) (t := []) (by rw [ht, List.append_nil]; rfl)).2.1
  have ri : ∀ k, indexPrefix h p <+: k → ¬ registryPrefix h p <+: k := by
    rintro k ⟨t, rfl⟩ ⟨u, hu⟩
    exact ne "EnclaveRegistry" "EnclaveIndex" (by decide) (by decide) (by decide) (prefix_twox hu).2.1
  have vd : versionKey h p ≠ debugKey h p := kd ":__STORAGE_VERSION__:" (by decide)
  have vo : versionKey h p ≠ oldDebugKey h p := kn _ _ (by decide) (by decide) (by decide)
  have vc : versionKey h p ≠ countKey h p := kn _ _ (by decide) (by decide) (by decide)
  have od : oldDebugKey h p ≠ debugKey h p := kd "AllowSGXDebugMode" (by decide)
  have cd : countKey h p ≠ debugKey h p := kd "EnclaveCount" (by decide)
  have oc : oldDebugKey h p ≠ countKey h p := kn _ _ (by decide) (by decide) (by decide)
  have rv : ¬ registryPrefix h p <+: versionKey h p := un _ _ (by decide) (by decide) (by decide)
  have ro : ¬ registryPrefix h p <+: oldDebugKey h p := un _ _ (by decide) (by decide) (by decide)
  have rc : ¬ registryPrefix h p <+: countKey h p := un _ _ (by decide) (by decide) (by decide)
  have rd : ¬ registryPrefix h p <+: debugKey h p := ud "EnclaveRegistry" (by decide)
  have iv : ¬ indexPrefix h p <+: versionKey h p := un _ _ (by decide) (by decide) (by decide)
  have io : ¬ indexPrefix h p <+: oldDebugKey h p := un _ _ (by decide) (by decide) (by decide)
  have ic : ¬ indexPrefix h p <+: countKey h p := un _ _ (by decide) (by decide) (by decide)
  have idb : ¬ indexPrefix h p <+: debugKey h p := ud "EnclaveIndex" (by decide)
  have hw : (v0ToV1 h p r).2.writes =
      (Raw.under r (registryPrefix h p)).length + (Raw.under r (indexPrefix h p)).length + 3 := by
    unfold v0ToV1
    rw [if_neg hv]
    simp only [Raw.under, List.length_map]
    rw [show ∀ (x : Raw) q, (x.clear q).2 = (x.filter fun e => q.isPrefixOf e.1).length from fun _ _ => rfl,
      show ∀ (x : Raw) q, (x.clear q).2 = (x.filter fun e => q.isPrefixOf e.1).length from fun _ _ => rfl,
      filter_clear ri, filter_kill rc, filter_put rd, filter_kill ro, filter_kill ic, filter_put idb, filter_kill io]
  have hver : r.get (versionKey h p) ≠ some [1, 0] := by
    intro hc
    rw [version_of hc] at hv0
    revert hv0; decide
  have hget := get_v0ToV1 h p r hv0
  rw [hw]
  have hnv : (1 ≤ version h p r) ↔ False := by simp [hv0]
  rw [hnv, false_or]
  clear hw hnv hv hv0 un ud kn kd ne
  generalize (v0ToV1 h p r).1 = t at hget ⊢
  generalize versionKey h p = kv at *
  generalize debugKey h p = kb at *
  generalize oldDebugKey h p = ko at *
  generalize countKey h p = kc at *
  generalize registryPrefix h p = pr at *
  generalize indexPrefix h p = pi at *
  constructor
  · rintro ⟨l, hl, hk⟩
    refine Classical.byContradiction fun hno => ?_
    simp only [not_or] at hno
    obtain ⟨n1, n2, n3⟩ := hno
    have nd : ([kv, kb, ko, kc] ++
        (Raw.under r pr ++ Raw.under r pi)).Nodup := by
      have sub (q : Bytes) : (Raw.under r q).Nodup :=
        List.Nodup.sublist (List.Sublist.map _ List.filter_sublist) hr
      rw [List.nodup_append, List.nodup_append]
      refine ⟨by simp [vd, vo, vc, od.symm, cd.symm, oc], ⟨sub _, sub _, ?_⟩, ?_⟩
      · rintro x hx y hy rfl
        exact ri x (mem_under.1 hy).1 (mem_under.1 hx).1
      · rintro x hx y hy rfl
        have hu : pr <+: x ∨ pi <+: x := by
          rcases List.mem_append.1 hy with hy | hy
          · exact .inl (mem_under.1 hy).1
          · exact .inr (mem_under.1 hy).1
        simp only [List.mem_cons, List.not_mem_nil, or_false] at hx
        rcases hx with rfl | rfl | rfl | rfl <;> rcases hu with hu | hu <;> contradiction
    have sub : ∀ k ∈ [kv, kb, ko, kc] ++
        (Raw.under r pr ++ Raw.under r pi), k ∈ l := by
      intro k hm
      refine Classical.byContradiction fun hn => ?_
      have e := hk k hn
      rw [hget] at e
      simp only [List.mem_append, List.mem_cons, List.not_mem_nil, or_false, mem_under] at hm
      rcases hm with (rfl | rfl | rfl | rfl) | hm | hm
      · rw [if_pos rfl] at e; exact hver e.symm
      · rw [if_neg vd.symm, if_neg (by simp [idb, rd, cd.symm]), if_pos rfl] at e; exact n3 e.symm
      · rw [if_neg vo.symm, if_neg (by simp [io, ro, oc]), if_neg od, if_pos rfl] at e; exact n1 e.symm
      · rw [if_neg vc.symm, if_pos (by simp)] at e; exact n2 e.symm
      · have : k ≠ kv := by rintro rfl; exact rv hm.1
        rw [if_neg this, if_pos (by simp [hm.1])] at e; exact hm.2 e.symm
      · have : k ≠ kv := by rintro rfl; exact iv hm.1
        rw [if_neg this, if_pos (by simp [hm.1])] at e; exact hm.2 e.symm
    have := nodup_length_le nd sub
    simp only [List.length_append, List.length_cons, List.length_nil] at this
    omega
  · intro hcase
    have gone : ∀ k, k ∉ Raw.under r pr ++ Raw.under r pi →
        pi <+: k ∨ pr <+: k → r.get k = none := by
      intro k hk hu
      simp only [List.mem_append, mem_under, not_or, not_and, Classical.not_not] at hk
      rcases hu with hu | hu
      · exact hk.2 hu
      · exact hk.1 hu
    rcases hcase with hc | hc | hc
    · refine ⟨[kv, kb, kc] ++
        (Raw.under r pr ++ Raw.under r pi), by simp, fun k hk => ?_⟩
      rw [List.mem_append, not_or] at hk
      simp only [List.mem_cons, List.not_mem_nil, or_false, not_or] at hk
      rw [hget, if_neg hk.1.1]
      have := gone k hk.2
      grind
    · refine ⟨[kv, kb, ko] ++
        (Raw.under r pr ++ Raw.under r pi), by simp, fun k hk => ?_⟩
      rw [List.mem_append, not_or] at hk
      simp only [List.mem_cons, List.not_mem_nil, or_false, not_or] at hk
      rw [hget, if_neg hk.1.1]
      have := gone k hk.2
      grind
    · refine ⟨[kv, ko, kc] ++
        (Raw.under r pr ++ Raw.under r pi), by simp, fun k hk => ?_⟩
      rw [List.mem_append, not_or] at hk
      simp only [List.mem_cons, List.not_mem_nil, or_false, not_or] at hk
      rw [hget, if_neg hk.1.1]
      have := gone k hk.2
      grind

/-- The chain of `C142_refuted` and one without a count. -/
example : UpgradeApart demoHash demoNames ∧ (emptyOld.map (·.1)).Nodup ∧
    emptyOld.get (oldDebugKey demoHash (demoNames .teerex)) = some [1] ∧
    emptyOld.get (debugKey demoHash (demoNames .teerex)) = none ∧
    Raw.get (emptyOld.take 1) (countKey demoHash (demoNames .teerex)) = none :=
  ⟨demoUpgradeApart, by decide +kernel, by decide +kernel, by decide +kernel, by decide +kernel⟩

end Verif
