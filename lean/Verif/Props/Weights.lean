import Verif.Spec.Weights
import Verif.Spec.DemoBridge
import Verif.Proofs.InvTeerex
import Verif.Proofs.InvBridge
import Verif.Proofs.InvRest
import Verif.Proofs.Teerdays
import Verif.Proofs.Inversion

/-!
# What calls are declared to cost, and what they change: C120, C121
-/

namespace Verif

open Demo EnclaveBridge

/-! ### C120 Publishing pays for what was measured -/

/-- C120, full claim: the weight of publishing a hash is at least what was measured for this many bytes and topics. -/
def C120_Full : Prop :=
  ∀ (db : DbWeight) (hash : H256) (topics : List H256) (data : Bytes) (f : WeightFn), topics.length ≤ 5 →
    data.length ≤ 100 → db.read ≤ 2 ^ 40 → db.write ≤ 2 ^ 40 →
    (Call.publishHash hash topics data).weightFn = some f →
    (measuredPublishing db data.length topics.length).atMost (f.weight db)

/-- The weight function, written as one sum. -/
theorem publishHash_weight (db : DbWeight) (l t : Nat) :
    (Weights.publishHash l t).weight db =
      ⟨min u64Max (28179644 + 318271 * l + 7329090 * t + db.read * 3 + db.read * t + db.write * 1 + db.write * t),
        min u64Max (8511 + 2475 * t)⟩ := by
  simp only [WeightFn.weight, Weights.publishHash, List.foldl_cons, List.foldl_nil, Summand.weight, Weight.add,
    Nat.zero_add, Nat.add_zero, Nat.zero_mul, Nat.min_zero, Nat.zero_min]
  simp only [Weight.mk.injEq]
  have h : u64Max = 18446744073709551615 := rfl
  constructor
  · generalize db.read * 3 = a
    generalize db.read * t = b
    generalize db.write * 1 = c
    generalize db.write * t = d
    omega
  · omega

/-- C120: it is, exactly if there are at least as many bytes of data as additional topics: the two numbers are handed
over in the wrong order. Missing for the full claim: less data than topics. -/
theorem C120_publish_weight_partial (db : DbWeight) (hash : H256) (topics : List H256) (data : Bytes) (f : WeightFn)
    (ht : topics.length ≤ 5) (hd : data.length ≤ 100) (hr : db.read ≤ 2 ^ 40) (hw : db.write ≤ 2 ^ 40)
    (hf : (Call.publishHash hash topics data).weightFn = some f) :
    (measuredPublishing db data.length topics.length).atMost (f.weight db) ↔ topics.length ≤ data.length := by
  simp only [Call.weightFn, Option.some.injEq] at hf
  subst hf
  have ht' : toU32 topics.length = topics.length := by unfold toU32; omega
  have hd' : toU32 data.length = data.length := by unfold toU32; omega
  rw [ht', hd', publishHash_weight]
  simp only [measuredPublishing, Weight.atMost]
  have hu : u64Max = 18446744073709551615 := rfl
  generalize topics.length = t at *
  generalize data.length = d at *
  constructor
  · rintro ⟨-, h⟩
    omega
  · intro h
    have h1 : db.read * t ≤ db.read * d := Nat.mul_le_mul_left _ h
    have h2 : db.write * t ≤ db.write * d := Nat.mul_le_mul_left _ h
    have h3 : db.read * t ≤ 2 ^ 40 * 5 := Nat.mul_le_mul hr ht
    have h4 : db.write * t ≤ 2 ^ 40 * 5 := Nat.mul_le_mul hw ht
    rw [Nat.mul_add, Nat.mul_add]
    generalize db.read * t = a at *
    generalize db.read * d = b at *
    generalize db.write * t = x at *
    generalize db.write * d = y at *
    constructor <;> omega

/-- One topic and ten bytes are covered, two topics and no data are not. -/
example : (measuredPublishing ⟨25000000, 100000000⟩ 10 1).atMost ((Weights.publishHash 1 10).weight ⟨25000000, 100000000⟩) ∧
    ¬ (measuredPublishing ⟨25000000, 100000000⟩ 0 2).atMost ((Weights.publishHash 2 0).weight ⟨25000000, 100000000⟩) := by
  unfold Weight.atMost
  decide

theorem C120_refuted : ¬ C120_Full := fun h =>
  absurd ((C120_publish_weight_partial ⟨25000000, 100000000⟩ hash1 [hash1, hash2] [] _ (by decide) (by decide)
    (by decide) (by decide) rfl).mp (h ⟨25000000, 100000000⟩ hash1 [hash1, hash2] [] _ (by decide) (by decide)
    (by decide) (by decide) rfl)) (by decide)

/-- Two topics and no data: 2.2 times less execution time than measured. -/
example : let db : DbWeight := ⟨25000000, 100000000⟩
    ((Weights.publishHash 2 0).weight db).refTime = 203816186 ∧
      (measuredPublishing db 0 2).refTime = 467837824 := by decide

/-! ### C121 Calls change no more entries than they declare -/

/-- C121, full claim: a successful call changes at most as many storage entries as its weight has writes. -/
def C121_Full : Prop :=
  ∀ (c : Cfg) (s s' : Chain) (o : Origin) (k : Call) (f : WeightFn), k.weightFn = some f →
    exec c s (.ext o k) = .ok s' → AtMostDiffer f.writes s s'

/-- How many entries a call may change. -/
def mayChange : Call → Nat
  | .bond _ | .bondExtra _ | .withdrawUnbonded => 3
  | .unbond _ => 2
  | .updateOther _ | .registerSgxEnclave .. | .unregisterSovereignEnclave _ | .unregisterProxiedEnclave _ => 1
  | .registerQuotingEnclave .. | .registerTcbInfo .. => 1
  | .setSecurityFlags .. => 2
  | .invoke .. => 0
  | .confirmProcessedParentchainBlock .. => 2
  | .shieldFunds .. => 2
  | .unshieldFunds .. => 5
  | .publishHash _ topics _ => topics.length + 2
  | .updateShardConfig .. => 2
  | .purgeEnclave .. => 1
  | .confirmImportedSidechainBlock .. => 3
  | .addToWhitelist .. | .removeFromWhitelist .. | .updateOracle .. | .updateExchangeRate .. => 1
  | .registerReserveAsset .. | .unregisterReserveAsset .. => 2
  | .sendSwapUmp .. => 0
  | .claims _ => 0
  | .balTransfer .. => 2

theorem AtMostDiffer.of_list {s s' : Chain} (l : List Cell) {n : Nat} (hn : l.length ≤ n)
    (h : ∀ x, x ∉ l → x.same s s') : AtMostDiffer n s s' := ⟨l, hn, h⟩

theorem frozen_of_locks {b b' : Balances} {a : AccountId} (h : ∀ id, b.lock id a = b'.lock id a) :
    b.frozen a = b'.frozen a := by
  simp only [Balances.frozen, h]

theorem setLock_lock_ne {b : Balances} {id : LockId} {a x : AccountId} {n : Nat} (h : x ≠ a) (i : LockId) :
    b.lock i x = (b.setLock id a n).lock i x := by
  unfold Balances.setLock
  split
  · rfl
  · by_cases hi : i = id
    · subst hi; simp [upd_same, upd_ne _ _ h]
    · simp [upd_ne _ _ hi]

theorem removeLock_lock_ne {b : Balances} {id : LockId} {a x : AccountId} (h : x ≠ a) (i : LockId) :
    b.lock i x = (b.removeLock id a).lock i x := by
  unfold Balances.removeLock
  by_cases hi : i = id
  · subst hi; simp [upd_same, upd_ne _ _ h]
  · simp [upd_ne _ _ hi]

theorem setLock_free {b : Balances} {id : LockId} {a : AccountId} {n : Nat} : (b.setLock id a n).free = b.free := by
  unfold Balances.setLock; split <;> rfl

theorem transfer_cells {ed m : Nat} {b b' : Balances} {src dst : AccountId} {v : Nat}
    (h : b.transfer ed m src dst v = .ok b') (a : AccountId) :
    (a ≠ src → a ≠ dst → b.free a = b'.free a) ∧ ∀ id, b.lock id a = b'.lock id a := by
  unfold Balances.transfer at h
  split at h
  · cases h; exact ⟨fun _ _ => rfl, fun _ => rfl⟩
  · repeat' split at h
    all_goals first | contradiction | skip
    all_goals
      cases h
      exact ⟨fun h1 h2 => by simp [upd_ne _ _ h1, upd_ne _ _ h2], fun _ => rfl⟩

theorem upd_upd_other {K L V : Type} [DecidableEq K] [DecidableEq L] {m : K → L → V} {k a : K} {l b : L} {v : V}
    (h : ¬ (a = k ∧ b = l)) : m a b = upd m k (upd (m k) l v) a b := by
  by_cases ha : a = k
  · subst ha
    rw [upd_same, upd_ne _ _ (fun hb => h ⟨rfl, hb⟩)]
  · rw [upd_ne _ _ ha]

/-- The entries of pallets outside of the list are the same: by looking at each kind of entry. -/
macro "slots" : tactic =>
  `(tactic| (
    intro x hx
    cases x <;> first
      | rfl
      | (simp only [List.mem_cons, Cell.slot.injEq, reduceCtorEq, Scale.Slot.teerDayBonds.injEq,
          Scale.Slot.pendingUnlock.injEq, Scale.Slot.sovereignEnclaves.injEq, Scale.Slot.proxiedEnclaves.injEq,
          Scale.Slot.tcbInfo.injEq, Scale.Slot.shardStatus.injEq, Scale.Slot.shardConfig.injEq,
          Scale.Slot.executedUnshieldCalls.injEq, Scale.Slot.latestConfirmation.injEq, Scale.Slot.exchangeRate.injEq,
          Scale.Slot.oracleData.injEq, Scale.Slot.whitelist.injEq, Scale.Slot.assetIdLocation.injEq,
          Scale.Slot.assetLocationId.injEq, List.not_mem_nil, List.mem_map, and_false, exists_false, or_false, false_or,
          not_or, not_true, not_false_eq_true] at hx
         try simp [Scale.Slot.same, upd_apply, dueConfig, hx])))

/-- The four kinds of entries, one after the other. -/
theorem AtMostDiffer.of_kinds {s s' : Chain} (l : List Cell) {n : Nat} (hn : l.length ≤ n)
    (hs : ∀ x, Cell.slot x ∉ l → x.same s s')
    (hf : ∀ a, Cell.account a ∉ l → s.bal.free a = s'.bal.free a)
    (hl : ∀ a, Cell.account a ∉ l ∨ Cell.locks a ∉ l → ∀ id, s.bal.lock id a = s'.bal.lock id a)
    (ht : ∀ h, Cell.topic h ∉ l →
      s.br.events.filter (h ∈ ·.topics) = s'.br.events.filter (h ∈ ·.topics)) : AtMostDiffer n s s' := by
  refine ⟨l, hn, fun x hx => ?_⟩
  cases x with
  | slot x => exact hs x hx
  | account a => exact ⟨hf a hx, frozen_of_locks (hl a (.inl hx))⟩
  | locks a => exact hl a (.inr hx)
  | topic h => exact ht h hx

/-- The same, for calls that leave the currency alone. -/
theorem AtMostDiffer.of_slots {s s' : Chain} (l : List Cell) {n : Nat} (hn : l.length ≤ n) (hb : s'.bal = s.bal)
    (ht : ∀ h, Cell.topic h ∉ l →
      s.br.events.filter (h ∈ ·.topics) = s'.br.events.filter (h ∈ ·.topics))
    (hs : ∀ x, Cell.slot x ∉ l → x.same s s') : AtMostDiffer n s s' :=
  .of_kinds l hn hs (fun _ _ => by rw [hb]) (fun _ _ _ => by rw [hb]) ht

/-- C121: a bound on the number of changed entries for each call. Missing for the full claim: it is not always the
declared one (`C121_covered_partial`). -/
theorem C121_changes_partial (c : Cfg) (s s' : Chain) (o : Origin) (k : Call) (hk : ∀ q, k ≠ .claims q)
    (h : exec c s (.ext o k) = .ok s') : AtMostDiffer (mayChange k) s s' := by
  cases k with
  | bond v =>
    obtain ⟨a, _, _, _, rfl⟩ := Teerdays.bond_ok.mp h
    refine .of_kinds [.slot (.teerDayBonds a), .account a, .locks a] (Nat.le_refl _) (by slots) ?_ ?_ fun _ _ => rfl
    · exact fun _ _ => by simp only [setLock_free]
    · exact fun x hx id => setLock_lock_ne (by rintro rfl; simp at hx) id
  | bondExtra v =>
    obtain ⟨a, _, _, _, _, _, rfl⟩ := Teerdays.bondExtra_ok.mp h
    refine .of_kinds [.slot (.teerDayBonds a), .account a, .locks a] (Nat.le_refl _) (by slots) ?_ ?_ fun _ _ => rfl
    · exact fun _ _ => by simp only [setLock_free]
    · exact fun x hx id => setLock_lock_ne (by rintro rfl; simp at hx) id
  | unbond v =>
    obtain ⟨a, _, _, _, _, _, _, _, rfl⟩ := Teerdays.unbond_ok.mp h
    exact .of_slots [.slot (.teerDayBonds a), .slot (.pendingUnlock a)] (Nat.le_refl _) rfl (fun _ _ => rfl) (by slots)
  | updateOther v =>
    obtain ⟨_, _, _, _, rfl⟩ := Teerdays.updateOther_ok.mp h
    exact .of_slots [.slot (.teerDayBonds v)] (Nat.le_refl _) rfl (fun _ _ => rfl) (by slots)
  | withdrawUnbonded =>
    obtain ⟨a, _, _, _, _, _, rfl⟩ := Teerdays.withdrawUnbonded_ok.mp h
    refine .of_kinds [.slot (.pendingUnlock a), .account a, .locks a] (Nat.le_refl _) (by slots) ?_ ?_ fun _ _ => rfl
    · intro _ _
      dsimp only
      split
      · rfl
      · simp only [setLock_free]
    · intro x hx id
      have hne : x ≠ a := by rintro rfl; simp at hx
      dsimp only
      split
      · exact removeLock_lock_ne hne id
      · exact setLock_lock_ne hne id
  | registerSgxEnclave =>
    obtain ⟨a, e, _, _, _, _, _, (⟨_, rfl⟩ | ⟨_, g, _, rfl⟩)⟩ := Teerex.registerSgxEnclave_ok.mp h
    · exact .of_slots [.slot (.sovereignEnclaves a)] (Nat.le_refl _) rfl (fun _ _ => rfl) (by slots)
    · exact .of_slots [.slot (.proxiedEnclaves ⟨e.fingerprint, a, g⟩)] (Nat.le_refl _) rfl (fun _ _ => rfl) (by slots)
  | unregisterSovereignEnclave a =>
    obtain ⟨_, _, _, _, _, rfl⟩ := Teerex.unregisterSovereignEnclave_ok.mp h
    exact .of_slots [.slot (.sovereignEnclaves a)] (Nat.le_refl _) rfl (fun _ _ => rfl) (by slots)
  | unregisterProxiedEnclave a =>
    obtain ⟨_, _, _, _, _, rfl⟩ := Teerex.unregisterProxiedEnclave_ok.mp h
    exact .of_slots [.slot (.proxiedEnclaves a)] (Nat.le_refl _) rfl (fun _ _ => rfl) (by slots)
  | registerQuotingEnclave =>
    obtain ⟨_, _, _, _, rfl⟩ := Teerex.registerQuotingEnclave_ok.mp h
    exact .of_slots [.slot .quotingEnclave] (Nat.le_refl _) rfl (fun _ _ => rfl) (by slots)
  | registerTcbInfo =>
    obtain ⟨_, f, _, _, _, rfl⟩ := Teerex.registerTcbInfo_ok.mp h
    exact .of_slots [.slot (.tcbInfo f)] (Nat.le_refl _) rfl (fun _ _ => rfl) (by slots)
  | setSecurityFlags =>
    obtain ⟨_, rfl⟩ := Teerex.setSecurityFlags_ok.mp h
    exact .of_slots [.slot .allowDebug, .slot .allowSkip] (Nat.le_refl _) rfl (fun _ _ => rfl) (by slots)
  | invoke shard cy =>
    obtain ⟨_, _, rfl⟩ := (invoke_ok (cy := cy)).mp h
    exact .of_slots [] (Nat.le_refl _) rfl (fun _ _ => by simp [BrEvent.topics]) (by slots)
  | confirmProcessedParentchainBlock shard =>
    obtain ⟨_, _, _, _, rfl⟩ := confirmProcessed_ok.mp h
    exact .of_slots [.slot (.shardStatus shard), .slot (.shardConfig shard)] (Nat.le_refl _) rfl
      (fun _ _ => by simp [BrEvent.topics]) (by slots)
  | shieldFunds shard =>
    obtain ⟨a, _, _, hb, rfl⟩ := shieldFunds_ok.mp h
    refine .of_kinds [.account a, .account shard] (Nat.le_refl _) (by slots) ?_ ?_ (fun _ _ => by simp [BrEvent.topics])
    · exact fun x hx => (transfer_cells hb x).1 (by rintro rfl; simp at hx) (by rintro rfl; simp at hx)
    · exact fun x _ => (transfer_cells hb x).2
  | unshieldFunds shard ben _ hash =>
    obtain ⟨_, _, _, _, (⟨_, _, _, hb, _, rfl⟩ | ⟨_, _, _, _, rfl⟩)⟩ := unshieldFunds_ok.mp h
    · refine .of_kinds [.slot (.shardStatus shard), .slot (.shardConfig shard), .slot (.executedUnshieldCalls hash),
        .account shard, .account ben] (Nat.le_refl _) (by slots) ?_ ?_ (fun _ _ => by simp [BrEvent.topics])
      · exact fun x hx => (transfer_cells hb x).1 (by rintro rfl; simp at hx) (by rintro rfl; simp at hx)
      · exact fun x _ => (transfer_cells hb x).2
    · exact .of_slots [.slot (.shardStatus shard), .slot (.shardConfig shard), .slot (.executedUnshieldCalls hash)]
        (by simp [mayChange]) rfl (fun _ _ => rfl) (by slots)
  | publishHash hash topics data =>
    obtain ⟨_, e, _, _, _, _, _, _, _, rfl⟩ := publishHash_ok.mp h
    refine .of_slots (.slot (.shardStatus e.fingerprint) :: (topics ++ [e.fingerprint]).map .topic)
      (by simp [mayChange]) rfl (fun x hx => ?_) (by slots)
    simp only [List.mem_cons, reduceCtorEq, List.mem_map, Cell.topic.injEq, exists_eq_right, false_or] at hx
    simp [BrEvent.topics, hx]
  | updateShardConfig shard =>
    rcases updateShardConfig_ok.mp h with ⟨_, rfl⟩ | ⟨_, _, _, _, _, _, _, _, rfl⟩
    all_goals
      exact .of_slots [.slot (.shardStatus shard), .slot (.shardConfig shard)] (Nat.le_refl _) rfl
        (fun _ _ => by simp [BrEvent.topics]) (by slots)
  | purgeEnclave shard =>
    obtain ⟨_, _, _, _, rfl⟩ := purgeEnclave_ok.mp h
    exact .of_slots [.slot (.shardStatus shard)] (Nat.le_refl _) rfl (fun _ _ => by simp [BrEvent.topics]) (by slots)
  | confirmImportedSidechainBlock shard =>
    obtain ⟨_, _, _, _, _, _, (⟨_, rfl⟩ | ⟨_, _, rfl⟩)⟩ := Sidechain.confirmImported_ok.mp h
    all_goals
      exact .of_slots [.slot (.shardStatus shard), .slot (.shardConfig shard),
        .slot (.latestConfirmation shard)] (Nat.le_refl _) rfl (fun _ _ => rfl) (by slots)
  | addToWhitelist src =>
    obtain ⟨_, _, _, _, rfl⟩ := Teeracle.addToWhitelist_ok.mp h
    exact .of_slots [.slot (.whitelist src)] (Nat.le_refl _) rfl (fun _ _ => rfl) (by slots)
  | removeFromWhitelist src =>
    obtain ⟨_, _, rfl⟩ := Teeracle.removeFromWhitelist_ok.mp h
    exact .of_slots [.slot (.whitelist src)] (Nat.le_refl _) rfl (fun _ _ => rfl) (by slots)
  | updateOracle name src =>
    obtain ⟨_, _, _, _, _, _, _, _, rfl⟩ := Teeracle.updateOracle_ok.mp h
    refine .of_slots [.slot (.oracleData name src)] (Nat.le_refl _) rfl (fun _ _ => rfl) fun x hx => ?_
    cases x <;> first | rfl | exact upd_upd_other (by rintro ⟨rfl, rfl⟩; simp at hx)
  | updateExchangeRate src pair =>
    obtain ⟨_, _, _, _, _, _, rfl⟩ := Teeracle.updateExchangeRate_ok.mp h
    refine .of_slots [.slot (.exchangeRate pair src)] (Nat.le_refl _) rfl (fun _ _ => rfl) fun x hx => ?_
    cases x <;> first | rfl | exact upd_upd_other (by rintro ⟨rfl, rfl⟩; simp at hx)
  | claims q => exact absurd rfl (hk q)
  | registerReserveAsset i l =>
    obtain ⟨_, _, _, _, rfl⟩ := AssetRegistry.registerReserveAsset_ok.mp h
    exact .of_slots [.slot (.assetIdLocation i), .slot (.assetLocationId l)] (Nat.le_refl _) rfl (fun _ _ => rfl)
      (by slots)
  | unregisterReserveAsset i =>
    obtain ⟨l, _, _, rfl⟩ := AssetRegistry.unregisterReserveAsset_ok.mp h
    exact .of_slots [.slot (.assetIdLocation i), .slot (.assetLocationId l)] (Nat.le_refl _) rfl (fun _ _ => rfl)
      (by slots)
  | sendSwapUmp =>
    obtain ⟨_, _, _, _, _, _, rfl⟩ := XcmTransactor.sendSwapUmp_ok.mp h
    exact .of_slots [] (Nat.le_refl _) rfl (fun _ _ => rfl) (by slots)
  | balTransfer dst =>
    obtain ⟨a, _, _, hb, rfl⟩ := balTransfer_ok.mp h
    refine .of_kinds [.account a, .account dst] (Nat.le_refl _) (by slots) ?_ ?_ (fun _ _ => rfl)
    · exact fun x hx => (transfer_cells hb x).1 (by rintro rfl; simp at hx) (by rintro rfl; simp at hx)
    · exact fun x _ => (transfer_cells hb x).2

example : (∀ q, Call.bond 100 ≠ .claims q) ∧ (exec cfg start (.ext (.signed alice) (.bond 100))).isOk = true ∧
    mayChange (.bond 100) = 3 := ⟨by simp, by decide +kernel, rfl⟩

/-- The calls that may change more entries than declared. -/
def Underdeclared : Call → Prop
  | .setSecurityFlags .. => True
  | .confirmProcessedParentchainBlock .. => True
  | .shieldFunds .. => True
  | .unshieldFunds .. => True
  | .confirmImportedSidechainBlock .. => True
  | .publishHash _ topics data => data.length ≤ topics.length
  | _ => False

/-- C121: all other calls change no more entries than declared. Missing for the full claim: the listed ones. The
hypotheses are met by the example "Bonding is covered" below. -/
theorem C121_covered_partial (c : Cfg) (s s' : Chain) (o : Origin) (k : Call) (f : WeightFn)
    (hf : k.weightFn = some f) (hu : ¬ Underdeclared k) (h : exec c s (.ext o k) = .ok s') :
    AtMostDiffer f.writes s s' := by
  obtain ⟨l, hl, hs⟩ := C121_changes_partial c s s' o k (by rintro q rfl; simp [Call.weightFn] at hf) h
  refine ⟨l, Nat.le_trans hl ?_, hs⟩
  cases k with
  | publishHash hash topics data =>
    obtain ⟨_, _, _, _, _, _, _, _, hd, _⟩ := publishHash_ok.mp h
    simp only [Underdeclared, Nat.not_le] at hu
    simp only [Call.weightFn, Option.some.injEq] at hf
    subst hf
    simp only [mayChange, WeightFn.writes, Weights.publishHash, toU32, List.map_cons, List.map_nil, List.sum_cons,
      List.sum_nil]
    omega
  | setSecurityFlags => exact absurd trivial hu
  | confirmProcessedParentchainBlock => exact absurd trivial hu
  | shieldFunds => exact absurd trivial hu
  | unshieldFunds => exact absurd trivial hu
  | confirmImportedSidechainBlock => exact absurd trivial hu
  | claims => simp [Call.weightFn] at hf
  | balTransfer => simp [Call.weightFn] at hf
  | _ =>
    simp only [Call.weightFn, Option.some.injEq] at hf
    subst hf
    exact Nat.le_of_ble_eq_true rfl

theorem nodup_length_le {α : Type} [DecidableEq α] : ∀ {l m : List α}, l.Nodup → (∀ x ∈ l, x ∈ m) → l.length ≤ m.length
  | [], _, _, _ => Nat.zero_le _
  | a :: l, m, hn, hs => by
    have hm := hs a (List.mem_cons_self ..)
    have h := nodup_length_le (m := m.erase a) (List.nodup_cons.mp hn).2 fun x hx =>
      (List.mem_erase_of_ne (by rintro rfl; exact (List.nodup_cons.mp hn).1 hx)).mpr (hs x (List.mem_cons_of_mem _ hx))
    rw [List.length_erase_of_mem hm] at h
    have := List.length_pos_of_mem hm
    rw [List.length_cons]
    omega

/-- Distinct entries that differ are counted. -/
theorem AtMostDiffer.count {n : Nat} {s s' : Chain} (h : AtMostDiffer n s s') (l : List Cell) (hl : l.Nodup)
    (hd : ∀ x ∈ l, ¬ x.same s s') : l.length ≤ n := by
  obtain ⟨m, hm, hs⟩ := h
  exact Nat.le_trans (nodup_length_le hl fun x hx => Decidable.byContradiction fun hn => hd x hx (hs x hn)) hm

/-- Alice's enclave 7 serves shard 7, an upgrade to itself is due, Bob has shielded 100. -/
def dueHistory : List Op :=
  [enroll alice 7, .ext .root (.updateShardConfig shard7 (config 7) 0),
    .ext (.signed alice) (.updateShardConfig shard7 (config 7) 0), shield bob 100, .newBlock 6000]

/-- After some history from the demo start, the call changes more entries than declared. -/
def Exceeds (k : Call) : Prop :=
  ∃ ops o s' f, k.weightFn = some f ∧ exec cfg (run cfg start ops) (.ext o k) = .ok s' ∧
    ¬ AtMostDiffer f.writes (run cfg start ops) s'

theorem Exceeds.of {k : Call} (ops : List Op) (o : Origin) (f : WeightFn) (l : List Cell) (hf : k.weightFn = some f)
    (hx : (exec cfg (run cfg start ops) (.ext o k)).isOk = true) (hn : l.Nodup) (hl : f.writes < l.length)
    (hd : ∀ x ∈ l, ¬ x.same (run cfg start ops) (step cfg (run cfg start ops) (.ext o k))) : Exceeds k := by
  cases h : exec cfg (run cfg start ops) (.ext o k) with
  | error e => rw [h] at hx; cases hx
  | ok s' =>
    rw [step_of_ok h] at hd
    exact ⟨ops, o, s', f, hf, h, fun ha => absurd (ha.count l hn hd) (by omega)⟩

/-- C121: each of the listed calls really exceeds its declaration in some history: flags by two, a parentchain block
by two, shielding by two, unshielding by five, a sidechain block by one, publishing with two topics and no data by
three. -/
theorem C121_each_refuted :
    Exceeds (.setSecurityFlags false true) ∧
    Exceeds (.confirmProcessedParentchainBlock shard7 hash1 5 hash2) ∧
    Exceeds (.shieldFunds shard7 [1, 2] 100) ∧
    Exceeds (.unshieldFunds shard7 carol 60 hash1) ∧
    Exceeds (.confirmImportedSidechainBlock shard7 none ⟨1, hash1⟩) ∧
    Exceeds (.publishHash hash1 [hash1, hash2] []) := by
  refine ⟨.of [] .root _ [.slot .allowDebug, .slot .allowSkip] rfl ?_ ?_ ?_ ?_,
    .of dueHistory (.signed alice) _ [.slot (.shardStatus shard7), .slot (.shardConfig shard7)] rfl ?_ ?_ ?_ ?_,
    .of [] (.signed bob) _ [.account bob, .account shard7] rfl ?_ ?_ ?_ ?_,
    .of dueHistory (.signed alice) _ [.slot (.shardStatus shard7), .slot (.shardConfig shard7),
      .slot (.executedUnshieldCalls hash1), .account shard7, .account carol] rfl ?_ ?_ ?_ ?_,
    .of dueHistory (.signed alice) _ [.slot (.shardStatus shard7), .slot (.shardConfig shard7),
      .slot (.latestConfirmation shard7)] rfl ?_ ?_ ?_ ?_,
    .of dueHistory (.signed alice) _ [.slot (.shardStatus (Arr.fill 32 7)), .topic hash1, .topic hash2,
      .topic (Arr.fill 32 7)] rfl ?_ ?_ ?_ ?_⟩
  all_goals first
    | decide +kernel
    | (simp only [List.mem_cons, List.not_mem_nil, or_false, forall_eq_or_imp, forall_eq, Cell.same, Scale.Slot.same]
       decide +kernel)

theorem C121_refuted : ¬ C121_Full := fun h => by
  obtain ⟨ops, o, s', f, hf, hx, hn⟩ := C121_each_refuted.2.2.2.1
  exact hn (h cfg _ s' o _ f hf hx)

/-- Bonding is covered: one entry for the bond, two for the lock. -/
example : ¬ Underdeclared (.bond 100) ∧ (exec cfg start (.ext (.signed alice) (.bond 100))).isOk = true ∧
    Weights.bond.writes = 3 := ⟨id, by decide +kernel, rfl⟩
