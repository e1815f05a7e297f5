import Verif.Spec.Locality
import Verif.Spec.DemoBridge
import Verif.Proofs.InvTeerex
import Verif.Proofs.InvBridge
import Verif.Proofs.InvRest
import Verif.Proofs.Inversion
import Verif.Proofs.Frame

/-!
# What calls look at and what they change: C124 - C126
-/

namespace Verif

open Demo EnclaveBridge

/-! ### C124 Calls change nothing else -/

theorem setLock_free_same {b : Balances} {id : LockId} {a : AccountId} {n : Nat} :
    (b.setLock id a n).free = b.free := by
  unfold Balances.setLock; split <;> rfl

theorem setLock_schedules_same {b : Balances} {id : LockId} {a : AccountId} {n : Nat} :
    (b.setLock id a n).schedules = b.schedules := by
  unfold Balances.setLock; split <;> rfl

theorem setLock_issuance_same {b : Balances} {id : LockId} {a : AccountId} {n : Nat} :
    (b.setLock id a n).issuance = b.issuance := by
  unfold Balances.setLock; split <;> rfl

theorem setLock_lock_other {b : Balances} {id i : LockId} {a x : AccountId} {n : Nat} (h : x ≠ a) :
    (b.setLock id a n).lock i x = b.lock i x := by
  unfold Balances.setLock
  split
  · rfl
  · by_cases hi : i = id
    · subst hi; simp [upd_same, upd_ne _ _ h]
    · simp [upd_ne _ _ hi]

theorem removeLock_free_same {b : Balances} {id : LockId} {a : AccountId} : (b.removeLock id a).free = b.free := rfl

theorem removeLock_lock_other {b : Balances} {id i : LockId} {a x : AccountId} (h : x ≠ a) :
    (b.removeLock id a).lock i x = b.lock i x := by
  unfold Balances.removeLock
  by_cases hi : i = id
  · subst hi; simp [upd_same, upd_ne _ _ h]
  · simp [upd_ne _ _ hi]

/-- The money places of two currencies. -/
def MoneySame (b b' : Balances) (a : AccountId) : Prop := b.free a = b'.free a ∧ ∀ id, b.lock id a = b'.lock id a

theorem transfer_frame {ed m : Nat} {b b' : Balances} {src dst : AccountId} {v : Nat}
    (h : b.transfer ed m src dst v = .ok b') :
    (∀ a, a ≠ src → a ≠ dst → MoneySame b b' a) ∧ b.schedules = b'.schedules ∧
      (¬ b.free src - v < ed → b.issuance = b'.issuance) := by
  unfold Balances.transfer at h
  split at h
  · cases h; exact ⟨fun _ _ _ => ⟨rfl, fun _ => rfl⟩, rfl, fun _ => rfl⟩
  · repeat' split at h
    all_goals first | contradiction | skip
    all_goals
      cases h
      refine ⟨fun a h1 h2 => ⟨by simp [upd_ne _ _ h1, upd_ne _ _ h2], fun _ => rfl⟩, rfl, fun hn => ?_⟩
      first
        | contradiction
        | simp [if_neg hn]

theorem depositCreating_frame {ed m : Nat} (b : Balances) (who : AccountId) (v : Nat) :
    (∀ a, a ≠ who → MoneySame b (b.depositCreating ed m who v) a) ∧
      b.schedules = (b.depositCreating ed m who v).schedules := by
  unfold Balances.depositCreating
  split
  · exact ⟨fun _ _ => ⟨rfl, fun _ => rfl⟩, rfl⟩
  · exact ⟨fun a h => ⟨by simp [upd_ne _ _ h], fun _ => rfl⟩, rfl⟩

theorem addVesting_frame {n block : Nat} {b b' : Balances} {who : AccountId} {v : VestingInfo}
    (h : b.addVesting n block who v = .ok b') :
    (∀ a, a ≠ who → MoneySame b b' a ∧ b.schedules a = b'.schedules a) := by
  unfold Balances.addVesting at h
  split at h
  · cases h; exact fun _ _ => ⟨⟨rfl, fun _ => rfl⟩, rfl⟩
  · repeat' split at h
    all_goals first | contradiction | skip
    cases h
    intro a ha
    refine ⟨⟨rfl, fun id => ?_⟩, by simp [Balances.updateVesting, upd_ne _ _ ha]⟩
    simp only [Balances.updateVesting]
    by_cases hi : id = .vesting
    · subst hi; simp [upd_same, upd_ne _ _ ha]
    · simp [upd_ne _ _ hi]

theorem paid_frame {c : Cfg} {s : Chain} {signer : EthAddr} {dest : AccountId} {due : Nat} {bal : Balances}
    (h : Claims.Paid c s signer dest due bal) :
    ∀ a, a ≠ dest → MoneySame s.bal bal a ∧ s.bal.schedules a = bal.schedules a := by
  intro a ha
  obtain ⟨h1, h2⟩ := depositCreating_frame (ed := c.ed) (m := c.balMax) s.bal dest due
  unfold Claims.Paid at h
  split at h
  · obtain ⟨h3, h4⟩ := addVesting_frame h.2 a ha
    have h5 := h1 a ha
    exact ⟨⟨h5.1.trans h3.1, fun id => (h5.2 id).trans (h3.2 id)⟩, by rw [h2]; exact h4⟩
  · subst h
    exact ⟨h1 a ha, by rw [← h2]⟩

theorem upd_upd_else {K L V : Type} [DecidableEq K] [DecidableEq L] {m : K → L → V} {k a : K} {l b : L} {v : V}
    (h : ¬ (a = k ∧ b = l)) : m a b = upd m k (upd (m k) l v) a b := by
  by_cases ha : a = k
  · subst ha
    rw [upd_same, upd_ne _ _ (fun hb => h ⟨rfl, hb⟩)]
  · rw [upd_ne _ _ ha]

/-- Six currency places, when the rest of the state is not touched. -/
theorem money_frame {s : Chain} {b : Balances} {l : List Place} (h1 : ∀ a, .money a ∉ l → MoneySame s.bal b a)
    (h2 : ∀ a, .schedules a ∉ l → s.bal.schedules a = b.schedules a)
    (h3 : .issuance ∉ l → s.bal.issuance = b.issuance) (x : Place) (hx : x ∉ l) : x.same s { s with bal := b } := by
  cases x with
  | money a => exact h1 a hx
  | schedules a => exact h2 a hx
  | issuance => exact h3 hx
  | enclaves a => exact ⟨rfl, fun _ _ => rfl⟩
  | _ => first | rfl | exact ⟨rfl, rfl⟩ | exact ⟨rfl, rfl, rfl⟩ | exact ⟨rfl, rfl, rfl, rfl, rfl⟩

/-- Places do not see events. -/
theorem Place.same.trans {s t u : Chain} {x : Place} (h1 : x.same s t) (h2 : x.same t u) : x.same s u := by
  cases x <;> simp only [Place.same] at * <;> grind

theorem Place.same.symm {s t : Chain} {x : Place} (h : x.same s t) : x.same t s := by
  cases x <;> simp only [Place.same] at * <;> grind

theorem Place.same.refl (s : Chain) (x : Place) : x.same s s := by
  cases x <;> simp [Place.same]

/-- All places outside of the list are the same: by looking at each of them. -/
macro "places" : tactic =>
  `(tactic| (
    intro x hx
    cases x <;> first
      | rfl
      | exact ⟨rfl, rfl⟩
      | exact ⟨rfl, rfl, rfl⟩
      | exact ⟨rfl, fun _ => rfl⟩
      | exact ⟨rfl, fun _ _ => rfl⟩
      | exact ⟨rfl, rfl, rfl, rfl, rfl⟩
      | (simp only [Call.changes, Origin.own, List.mem_cons, List.not_mem_nil, reduceCtorEq, or_false, false_or,
          not_or, not_false_eq_true, not_true, Place.bond.injEq, Place.pending.injEq, Place.enclaves.injEq,
          Place.money.injEq, Place.schedules.injEq, Place.shard.injEq, Place.whitelist.injEq, Place.rate.injEq,
          Place.blob.injEq, Place.unshielding.injEq, List.mem_append, and_true, true_and] at hx
         first
          | exact hx.elim
          | exact upd_upd_else hx
          | simp [Place.same, upd_ne, dueConfig, removeLock_free_same, hx, setLock_free_same, setLock_schedules_same, setLock_issuance_same,
              setLock_lock_other, removeLock_lock_other]
          | skip)))

/-- Sending money changes nothing else. -/
theorem sending_frame {c : Cfg} {s : Chain} {b : Balances} {src dst : AccountId} {v : Nat}
    (h : s.bal.transfer c.ed c.balMax src dst v = .ok b) {x : Place} (hx : x ∉ sending c s src dst v) :
    x.same s { s with bal := b } := by
  obtain ⟨h1, h2, h3⟩ := transfer_frame h
  refine money_frame (l := sending c s src dst v) (fun a ha => h1 a ?_ ?_) (fun a _ => by rw [h2]) (fun hi => h3 ?_) x hx
  · rintro rfl; simp [sending] at ha
  · rintro rfl; simp [sending] at ha
  · intro hd; simp [sending, leavesDust, hd] at hi

/-- The payment of a claim changes nothing else. -/
theorem paid_places {c : Cfg} {s s' : Chain} {signer : EthAddr} {dest : AccountId} {due : Nat} {l : List Place}
    (h : Claims.Paid c s signer dest due s'.bal) (h1 : s'.td = s.td) (h2 : s'.tx = s.tx) (h3 : s'.br = s.br)
    (h4 : s'.sc = s.sc) (h5 : s'.orc = s.orc) (h6 : s'.ar = s.ar) (h7 : s'.xt = s.xt) (h8 : s'.assets = s.assets)
    (_ : s'.now = s.now) (l1 : .claims ∈ l) (l2 : .money dest ∈ l) (l3 : .schedules dest ∈ l) (l4 : .issuance ∈ l)
    (x : Place) (hx : x ∉ l) : x.same s s' := by
  cases x with
  | money a => exact (paid_frame h a (by rintro rfl; exact hx l2)).1
  | schedules a => exact (paid_frame h a (by rintro rfl; exact hx l3)).2
  | issuance => exact absurd l4 hx
  | claims => exact absurd l1 hx
  | _ => simp [Place.same, *]

/-- **C124** A call that succeeds changes nothing but what is listed for it: other accounts' bonds, withdrawals,
balances, locks and enclaves, other shards, other data stay as they were. The hypothesis is met by the example for C124
below. -/
theorem C124_only_own_places (c : Cfg) (s s' : Chain) (o : Origin) (k : Call) (h : exec c s (.ext o k) = .ok s') :
    s'.now = s.now ∧ s'.block = s.block ∧ ∀ x, x ∉ k.changes c s o → x.same s s' := by
  cases k with
  | bond v =>
    obtain ⟨a, rfl, _, _, rfl⟩ := Teerdays.bond_ok.mp h
    exact ⟨rfl, rfl, by places⟩
  | bondExtra v =>
    obtain ⟨a, _, rfl, _, _, _, rfl⟩ := Teerdays.bondExtra_ok.mp h
    exact ⟨rfl, rfl, by places⟩
  | unbond v =>
    obtain ⟨a, _, _, rfl, _, _, _, _, rfl⟩ := Teerdays.unbond_ok.mp h
    exact ⟨rfl, rfl, by places⟩
  | updateOther v =>
    obtain ⟨_, _, rfl, _, rfl⟩ := Teerdays.updateOther_ok.mp h
    exact ⟨rfl, rfl, by places⟩
  | withdrawUnbonded =>
    obtain ⟨a, _, _, rfl, _, _, rfl⟩ := Teerdays.withdrawUnbonded_ok.mp h
    refine ⟨rfl, rfl, ?_⟩
    split
    · places
    · places
  | registerSgxEnclave =>
    obtain ⟨a, e, rfl, _, _, _, _, (⟨_, rfl⟩ | ⟨_, g, _, rfl⟩)⟩ := Teerex.registerSgxEnclave_ok.mp h
    · exact ⟨rfl, rfl, by places⟩
    · refine ⟨rfl, rfl, ?_⟩
      places
      rename_i hx
      refine fun y hy => (upd_ne _ _ ?_).symm
      rintro rfl
      exact hx hy.symm
  | unregisterSovereignEnclave a =>
    obtain ⟨_, _, _, _, _, rfl⟩ := Teerex.unregisterSovereignEnclave_ok.mp h
    exact ⟨rfl, rfl, by places⟩
  | unregisterProxiedEnclave a =>
    obtain ⟨_, _, _, _, _, rfl⟩ := Teerex.unregisterProxiedEnclave_ok.mp h
    refine ⟨rfl, rfl, ?_⟩
    places
    rename_i hx
    refine fun y hy => (upd_ne _ _ ?_).symm
    rintro rfl
    exact hx hy.symm
  | registerQuotingEnclave =>
    obtain ⟨_, _, _, _, rfl⟩ := Teerex.registerQuotingEnclave_ok.mp h
    exact ⟨rfl, rfl, by places⟩
  | registerTcbInfo =>
    obtain ⟨_, f, _, _, _, rfl⟩ := Teerex.registerTcbInfo_ok.mp h
    exact ⟨rfl, rfl, by places⟩
  | setSecurityFlags =>
    obtain ⟨_, rfl⟩ := Teerex.setSecurityFlags_ok.mp h
    exact ⟨rfl, rfl, by places⟩
  | invoke shard cy =>
    obtain ⟨_, _, rfl⟩ := (invoke_ok (cy := cy)).mp h
    exact ⟨rfl, rfl, by places⟩
  | confirmProcessedParentchainBlock shard =>
    obtain ⟨_, _, _, _, rfl⟩ := confirmProcessed_ok.mp h
    exact ⟨rfl, rfl, by places⟩
  | shieldFunds shard =>
    obtain ⟨a, _, rfl, hb, rfl⟩ := shieldFunds_ok.mp h
    exact ⟨rfl, rfl, fun x hx => (sending_frame hb hx).trans (by cases x <;> simp [Place.same])⟩
  | unshieldFunds shard ben _ hash =>
    obtain ⟨_, _, _, _, (⟨_, _, _, hb, _, rfl⟩ | ⟨_, _, _, _, rfl⟩)⟩ := unshieldFunds_ok.mp h
    · refine ⟨rfl, rfl, fun x hx => ?_⟩
      simp only [Call.changes, List.mem_append, not_or] at hx
      refine (sending_frame hb hx.2).trans ?_
      replace hx := hx.1
      revert x
      places
    · refine ⟨rfl, rfl, fun x hx => ?_⟩
      simp only [Call.changes, List.mem_append, not_or] at hx
      replace hx := hx.1
      revert x
      places
  | publishHash hash topics data =>
    obtain ⟨a, e, _, rfl, he, _, _, _, _, rfl⟩ := publishHash_ok.mp h
    refine ⟨rfl, rfl, fun x hx => ?_⟩
    simp only [Call.changes, Origin.own, ownShard, he] at hx
    change x ∉ [Place.shard e.fingerprint] at hx
    revert x
    places
  | updateShardConfig shard =>
    obtain (⟨_, rfl⟩ | ⟨_, _, _, _, _, _, _, _, rfl⟩) := updateShardConfig_ok.mp h
    · exact ⟨rfl, rfl, by places⟩
    · exact ⟨rfl, rfl, by places⟩
  | purgeEnclave shard =>
    obtain ⟨_, _, _, _, rfl⟩ := purgeEnclave_ok.mp h
    exact ⟨rfl, rfl, by places⟩
  | confirmImportedSidechainBlock shard =>
    obtain ⟨_, _, _, _, _, _, (⟨_, rfl⟩ | ⟨_, _, rfl⟩)⟩ := Sidechain.confirmImported_ok.mp h
    · exact ⟨rfl, rfl, by places⟩
    · exact ⟨rfl, rfl, by places⟩
  | addToWhitelist =>
    obtain ⟨_, _, _, _, rfl⟩ := Teeracle.addToWhitelist_ok.mp h
    exact ⟨rfl, rfl, by places⟩
  | removeFromWhitelist =>
    obtain ⟨_, _, rfl⟩ := Teeracle.removeFromWhitelist_ok.mp h
    exact ⟨rfl, rfl, by places⟩
  | updateOracle =>
    obtain ⟨_, _, _, _, _, _, _, _, rfl⟩ := Teeracle.updateOracle_ok.mp h
    exact ⟨rfl, rfl, by places⟩
  | updateExchangeRate =>
    obtain ⟨_, _, _, _, _, _, rfl⟩ := Teeracle.updateExchangeRate_ok.mp h
    exact ⟨rfl, rfl, by places⟩
  | claims q =>
    cases q with
    | claim d =>
      obtain ⟨_, _, _, _, h⟩ := Claims.claim_ok.mp h
      obtain ⟨_, _, _, _, hp, rfl⟩ := Claims.processClaim_ok.mp h
      exact ⟨rfl, rfl, paid_places hp rfl rfl rfl rfl rfl rfl rfl rfl rfl (by simp [Call.changes])
        (by simp [Call.changes]) (by simp [Call.changes]) (by simp [Call.changes])⟩
    | claimAttest d =>
      obtain ⟨_, _, _, _, h⟩ := Claims.claimAttest_ok.mp h
      obtain ⟨_, _, _, _, hp, rfl⟩ := Claims.processClaim_ok.mp h
      exact ⟨rfl, rfl, paid_places hp rfl rfl rfl rfl rfl rfl rfl rfl rfl (by simp [Call.changes])
        (by simp [Call.changes]) (by simp [Call.changes]) (by simp [Call.changes])⟩
    | attest =>
      obtain ⟨_, _, _, rfl, _, _, hq, rfl⟩ := Claims.attest_ok.mp h
      obtain ⟨_, _, _, _, hp, rfl⟩ := Claims.processClaim_ok.mp hq
      exact ⟨rfl, rfl, paid_places hp rfl rfl rfl rfl rfl rfl rfl rfl rfl (by simp [Call.changes])
        (by simp [Call.changes, Origin.own]) (by simp [Call.changes, Origin.own]) (by simp [Call.changes])⟩
    | mintClaim =>
      obtain ⟨_, _, _, rfl⟩ := Claims.mintClaim_ok.mp h
      exact ⟨rfl, rfl, by places⟩
    | moveClaim =>
      obtain ⟨_, rfl⟩ := Claims.moveClaim_ok.mp h
      exact ⟨rfl, rfl, by places⟩
  | registerReserveAsset =>
    obtain ⟨_, _, _, _, rfl⟩ := AssetRegistry.registerReserveAsset_ok.mp h
    exact ⟨rfl, rfl, by places⟩
  | unregisterReserveAsset =>
    obtain ⟨_, _, _, rfl⟩ := AssetRegistry.unregisterReserveAsset_ok.mp h
    exact ⟨rfl, rfl, by places⟩
  | sendSwapUmp =>
    obtain ⟨_, _, _, _, _, _, rfl⟩ := XcmTransactor.sendSwapUmp_ok.mp h
    exact ⟨rfl, rfl, by places⟩
  | balTransfer =>
    obtain ⟨_, _, rfl, hb, rfl⟩ := balTransfer_ok.mp h
    exact ⟨rfl, rfl, fun x hx => sending_frame hb hx⟩

/-! ### C125 Calls depend on nothing else -/

theorem reducible_of_same {ed : Nat} {b b' : Balances} {a : AccountId} (h : MoneySame b b' a) :
    Balances.reducible ed b a = Balances.reducible ed b' a := by
  have hf : Balances.frozen b a = Balances.frozen b' a := by simp only [Balances.frozen, h.2]
  unfold Balances.reducible
  rw [hf, h.1]

theorem transfer_local {ed m : Nat} {b b1 b' : Balances} {src dst : AccountId} {v : Nat}
    (h : b.transfer ed m src dst v = .ok b') (h1 : MoneySame b b1 src) (h2 : MoneySame b b1 dst) :
    ∃ b1', b1.transfer ed m src dst v = .ok b1' ∧ MoneySame b' b1' src ∧ MoneySame b' b1' dst ∧
      (b.issuance = b1.issuance → b'.issuance = b1'.issuance) := by
  unfold Balances.transfer at h ⊢
  rw [← reducible_of_same h1, ← h1.1, ← h2.1]
  split at h
  · cases h
    rename_i hc
    exact ⟨b1, by rw [if_pos hc], h1, h2, id⟩
  · repeat' split at h
    all_goals first | contradiction | skip
    all_goals
      rename_i c1 c2 c3 c4 c5
      cases h
      refine ⟨_, (if_neg c1).trans ((if_neg c2).trans ((if_neg c3).trans ((if_neg c4).trans (if_neg c5)))),
        ⟨?_, h1.2⟩, ⟨?_, h2.2⟩, ?_⟩
      · simp [upd_apply]
      · simp [upd_apply]
      · intro hi; simp only [hi]

theorem setLock_local {b b1 : Balances} {id : LockId} {a : AccountId} {n : Nat} (h : MoneySame b b1 a) :
    MoneySame (b.setLock id a n) (b1.setLock id a n) a := by
  unfold Balances.setLock
  split
  · exact h
  · refine ⟨h.1, fun i => ?_⟩
    by_cases hi : i = id
    · subst hi; simp [upd_same]
    · simp [upd_ne _ _ hi, h.2]

theorem removeLock_local {b b1 : Balances} {id : LockId} {a : AccountId} (h : MoneySame b b1 a) :
    MoneySame (b.removeLock id a) (b1.removeLock id a) a := by
  unfold Balances.removeLock
  refine ⟨h.1, fun i => ?_⟩
  by_cases hi : i = id
  · subst hi; simp [upd_same]
  · simp [upd_ne _ _ hi, h.2]

theorem depositCreating_local {ed m : Nat} {b b1 : Balances} {a : AccountId} {v : Nat} (h : MoneySame b b1 a)
    (hi : b.issuance = b1.issuance) :
    MoneySame (b.depositCreating ed m a v) (b1.depositCreating ed m a v) a ∧
      (b.depositCreating ed m a v).issuance = (b1.depositCreating ed m a v).issuance := by
  unfold Balances.depositCreating
  rw [← h.1, ← hi]
  split
  · exact ⟨h, hi⟩
  · exact ⟨⟨by simp [upd_same], h.2⟩, rfl⟩

theorem addVesting_issuance {n block : Nat} {b b' : Balances} {who : AccountId} {v : VestingInfo}
    (h : b.addVesting n block who v = .ok b') : b'.issuance = b.issuance := by
  unfold Balances.addVesting at h
  repeat' split at h
  all_goals first | contradiction | skip
  all_goals cases h; rfl

theorem addVesting_local {n block : Nat} {b b1 b' : Balances} {who : AccountId} {v : VestingInfo}
    (h : b.addVesting n block who v = .ok b') (h1 : MoneySame b b1 who) (h2 : b.schedules who = b1.schedules who) :
    ∃ b1', b1.addVesting n block who v = .ok b1' ∧ MoneySame b' b1' who ∧ b'.schedules who = b1'.schedules who := by
  unfold Balances.addVesting at h ⊢
  rw [← h2]
  split at h
  · cases h
    rename_i hc
    exact ⟨b1, by rw [if_pos hc], h1, h2⟩
  · repeat' split at h
    all_goals first | contradiction | skip
    rename_i c1 c2 c3
    cases h
    refine ⟨_, (if_neg c1).trans ((if_neg c2).trans (if_neg c3)), ⟨h1.1, fun i => ?_⟩, ?_⟩
    · simp only [Balances.updateVesting]
      by_cases hi : i = .vesting
      · subst hi; simp [upd_same]
      · simp [upd_ne _ _ hi, h1.2]
    · simp [Balances.updateVesting, upd_same]

theorem paid_local {c : Cfg} {s t : Chain} {signer : EthAddr} {dest : AccountId} {due : Nat} {bal : Balances}
    (h : Claims.Paid c s signer dest due bal) (hb : s.block = t.block) (h0 : s.cl.vesting = t.cl.vesting)
    (h1 : MoneySame s.bal t.bal dest) (h2 : s.bal.schedules dest = t.bal.schedules dest)
    (h3 : s.bal.issuance = t.bal.issuance) :
    ∃ bal', Claims.Paid c t signer dest due bal' ∧ MoneySame bal bal' dest ∧
      bal.schedules dest = bal'.schedules dest ∧ bal.issuance = bal'.issuance := by
  obtain ⟨h4, h5⟩ := depositCreating_local (ed := c.ed) (m := c.balMax) (v := due) h1 h3
  have h6 := (depositCreating_frame (ed := c.ed) (m := c.balMax) s.bal dest due).2
  have h7 := (depositCreating_frame (ed := c.ed) (m := c.balMax) t.bal dest due).2
  unfold Claims.Paid at h ⊢
  rw [← h0, ← h2, ← hb]
  split at h
  · obtain ⟨hs, hv⟩ := h
    obtain ⟨b1, hv1, h8, h9⟩ := addVesting_local hv h4 (by rw [← h6, ← h7]; exact h2)
    exact ⟨b1, ⟨hs, hv1⟩, h8, h9, by rw [addVesting_issuance hv, addVesting_issuance hv1]; exact h5⟩
  · subst h
    exact ⟨_, rfl, h4, by rw [← h6, ← h7]; exact h2, h5⟩

theorem attest_local {c : Cfg} {s t : Chain} {a : AccountId} {proof : Bytes} {m : SgxAttestationMethod}
    (h1 : s.now = t.now) (h2 : s.tx.qe = t.tx.qe) (h3 : s.tx.tcb = t.tx.tcb) (h4 : s.tx.allowSkip = t.tx.allowSkip) :
    Teerex.attest c s a proof m = Teerex.attest c t a proof m := by
  unfold Teerex.attest Teerex.ensureTimestampWithin24Hours
  rw [h1, h2, h3, h4]

theorem verifyQuotingEnclave_local {c : Cfg} {s t : Chain} {i g ch : Bytes} (h1 : s.now = t.now) :
    Teerex.verifyQuotingEnclave c s i g ch = Teerex.verifyQuotingEnclave c t i g ch := by
  unfold Teerex.verifyQuotingEnclave Teerex.verifyCollateralCerts
  rw [h1]

theorem verifyTcbInfo_local {c : Cfg} {s t : Chain} {i g ch : Bytes} (h1 : s.now = t.now) :
    Teerex.verifyTcbInfo c s i g ch = Teerex.verifyTcbInfo c t i g ch := by
  unfold Teerex.verifyTcbInfo Teerex.verifyCollateralCerts
  rw [h1]

theorem inEffect_local {s t : Chain} {i : ShardId} (h : s.br.config i = t.br.config i) (n : Nat) :
    configInEffect s i n = configInEffect t i n ∧ fingerprintInEffect s i n = fingerprintInEffect t i n := by
  unfold fingerprintInEffect configInEffect
  rw [h]
  exact ⟨rfl, rfl⟩

theorem touched_local {s t : Chain} {i : ShardId} (h : s.br.status i = t.br.status i) (a : AccountId)
    (fp : Fingerprint) (n : Nat) : touched s i a fp n = touched t i a fp n := by
  unfold touched
  rw [h]

theorem entered_local {s t : Chain} {o : Origin} {i : ShardId} {a : AccountId} {e : SgxEnclave}
    {l : List SignerStatus} (h : Entered s o i a e l) (hb : s.block = t.block)
    (h1 : s.tx.sovereign a = t.tx.sovereign a) (h2 : s.br.status i = t.br.status i)
    (h3 : s.br.config i = t.br.config i) : Entered t o i a e l := by
  unfold Entered at h ⊢
  rw [← h1, ← hb, ← (inEffect_local h3 s.block).2, ← touched_local h2]
  exact h

theorem newConfig_local {c : Cfg} {s t : Chain} {i : ShardId} {cfg : ShardConfig} {d : Nat}
    (hb : s.block = t.block) (h : s.br.config i = t.br.config i) :
    newConfig c s i cfg d = newConfig c t i cfg d := by
  unfold newConfig
  rw [← hb, (inEffect_local h s.block).1]

/-- Two states that look the same to a call: it may change the same places in both. -/
theorem changes_local {c : Cfg} {s t : Chain} {o : Origin} {k : Call} (h : k.cannotTell c s t o) :
    k.changes c t o = k.changes c s o := by
  have hs : ∀ src dst v, Place.same s t (.money src) → sending c t src dst v = sending c s src dst v := by
    intro src dst v hm
    have hd : leavesDust c t src v = leavesDust c s src v := by unfold leavesDust; rw [hm.1]
    unfold sending
    rw [hd]
  cases k with
  | shieldFunds i _ v =>
    cases o with
    | signed a => exact hs a i v (h.2.2 _ (.inl (by simp [Call.changes, Origin.own, sending])))
    | _ => rfl
  | balTransfer i v =>
    cases o with
    | signed a => exact hs a i v (h.2.2 _ (.inl (by simp [Call.changes, Origin.own, sending])))
    | _ => rfl
  | unshieldFunds i b v g =>
    simp only [Call.changes]
    rw [hs i b v (h.2.2 _ (.inl (by simp [Call.changes, sending])))]
  | publishHash =>
    cases o with
    | signed a =>
      have := (h.2.2 (.enclaves a) (.inr (by simp [Call.consults, Origin.own]))).1
      simp only [Call.changes, Origin.own, ownShard, this]
    | _ => rfl
  | claims q => cases q <;> rfl
  | _ => rfl

/-- Places that may have been changed, after the change in both states. -/
theorem sending_local {c : Cfg} {s t s' t' : Chain} {b b' : Balances} {src dst : AccountId} {v : Nat}
    (hb : s'.bal = b) (hb' : t'.bal = b') (h1 : MoneySame b b' src) (h2 : MoneySame b b' dst)
    (hi : s.bal.issuance = t.bal.issuance → b.issuance = b'.issuance)
    (hs : ∀ x ∈ sending c s src dst v, x.same s t) : ∀ x ∈ sending c s src dst v, x.same s' t' := by
  intro x hx
  subst hb hb'
  have hx' := hx
  unfold sending at hx
  simp only [List.mem_append, List.mem_cons, List.not_mem_nil, or_false] at hx
  obtain ((rfl | rfl) | hx) := hx
  · exact h1
  · exact h2
  · split at hx
    · obtain rfl := List.mem_singleton.mp hx
      exact hi (hs _ hx')
    · simp at hx

/-- Go through the list of places. -/
macro "listed" loc:(Lean.Parser.Tactic.location)? : tactic =>
  `(tactic| simp only [Call.changes, Call.consults, Origin.own, List.forall_mem_cons, List.not_mem_nil, false_implies,
      implies_true, and_true] $[$loc]?)

/-- **C125** What a call does depends on nothing but the clock, what is listed as consulted, and what it changes: in
two states that agree there, a call that succeeds in one succeeds in the other, with the same result in all places it
may change. The hypotheses are met by the example for C125 below. -/
theorem C125_same_effect (c : Cfg) (s t s' : Chain) (o : Origin) (k : Call) (hk : k.cannotTell c s t o)
    (h : exec c s (.ext o k) = .ok s') :
    ∃ t', exec c t (.ext o k) = .ok t' ∧ k.changes c t o = k.changes c s o ∧
      ∀ x, x ∈ k.changes c s o → x.same s' t' := by
  suffices hh : ∃ t', exec c t (.ext o k) = .ok t' ∧ ∀ x, x ∈ k.changes c s o → x.same s' t' by
    obtain ⟨t', h1, h2⟩ := hh
    exact ⟨t', h1, changes_local hk, h2⟩
  obtain ⟨hn, hb, hk⟩ := hk
  have hc : ∀ x, x ∈ k.changes c s o → x.same s t := fun x hx => hk x (.inl hx)
  have hr : ∀ x, x ∈ k.consults o → x.same s t := fun x hx => hk x (.inr hx)
  clear hk
  cases k with
  | bond v =>
    obtain ⟨a, rfl, h1, h2, rfl⟩ := Teerdays.bond_ok.mp h
    listed at hc
    obtain ⟨e1, e2⟩ := hc
    refine ⟨_, Teerdays.bond_ok.mpr ⟨a, rfl, e1 ▸ h1, h2, rfl⟩, ?_⟩
    listed
    refine ⟨?_, ?_⟩
    · simp [Place.same, upd_same, e2.1, hn]
    · rw [← e2.1]; exact setLock_local e2
  | bondExtra v =>
    obtain ⟨a, b, rfl, h1, h2, h3, rfl⟩ := Teerdays.bondExtra_ok.mp h
    listed at hc hr
    obtain ⟨e1, e2⟩ := hc
    refine ⟨_, Teerdays.bondExtra_ok.mpr ⟨a, b, rfl, hr ▸ h1, h2, e1 ▸ h3, rfl⟩, ?_⟩
    listed
    refine ⟨?_, ?_⟩
    · simp [Place.same, upd_same, e2.1, hn]
    · rw [← e2.1]; exact setLock_local e2
  | unbond v =>
    obtain ⟨a, b, due, rfl, h1, h2, h3, h4, rfl⟩ := Teerdays.unbond_ok.mp h
    listed at hc
    obtain ⟨e1, e2⟩ := hc
    refine ⟨_, Teerdays.unbond_ok.mpr ⟨a, b, due, rfl, e2 ▸ h1, h2, e1 ▸ h3, hn ▸ h4, rfl⟩, ?_⟩
    listed
    refine ⟨?_, ?_⟩
    · simp [Place.same, upd_same, hn]
    · simp [Place.same, upd_same]
  | updateOther v =>
    obtain ⟨a, b, rfl, h1, rfl⟩ := Teerdays.updateOther_ok.mp h
    listed at hc
    refine ⟨_, Teerdays.updateOther_ok.mpr ⟨a, b, rfl, hc ▸ h1, rfl⟩, ?_⟩
    listed
    simp [Place.same, upd_same, hn]
  | withdrawUnbonded =>
    obtain ⟨a, d, m, rfl, h1, h2, rfl⟩ := Teerdays.withdrawUnbonded_ok.mp h
    listed at hc
    obtain ⟨e1, e2⟩ := hc
    refine ⟨_, Teerdays.withdrawUnbonded_ok.mpr ⟨a, d, m, rfl, e1 ▸ h1, hn ▸ h2, rfl⟩, ?_⟩
    listed
    refine ⟨by simp [Place.same, upd_same], ?_⟩
    simp only [Place.same]
    rw [← e2.2 .teerdays]
    split
    · exact removeLock_local e2
    · exact setLock_local e2
  | registerSgxEnclave proof url m =>
    listed at hr
    obtain ⟨e1, e2, e3, e4⟩ := hr
    obtain ⟨a, e, rfl, h1, h2, h3, h4, (⟨h5, rfl⟩ | ⟨h5, g, h6, rfl⟩)⟩ := Teerex.registerSgxEnclave_ok.mp h
    · listed at hc
      refine ⟨_, Teerex.registerSgxEnclave_ok.mpr ⟨a, e, rfl, h1, h2, attest_local hn e1 e2 e4 ▸ h3, e3 ▸ h4,
        .inl ⟨h5, rfl⟩⟩, ?_⟩
      listed
      exact ⟨by simp [upd_same], hc.2⟩
    · listed at hc
      refine ⟨_, Teerex.registerSgxEnclave_ok.mpr ⟨a, e, rfl, h1, h2, attest_local hn e1 e2 e4 ▸ h3, e3 ▸ h4,
        .inr ⟨h5, g, h6, rfl⟩⟩, ?_⟩
      listed
      refine ⟨hc.1, fun x hx => ?_⟩
      simp only [upd_apply, hc.2 x hx]
  | unregisterSovereignEnclave a =>
    obtain ⟨b, e, rfl, h1, h2, rfl⟩ := Teerex.unregisterSovereignEnclave_ok.mp h
    listed at hc
    refine ⟨_, Teerex.unregisterSovereignEnclave_ok.mpr ⟨b, e, rfl, hc.1 ▸ h1, hn ▸ h2, rfl⟩, ?_⟩
    listed
    exact ⟨by simp [upd_same], hc.2⟩
  | unregisterProxiedEnclave a =>
    obtain ⟨b, e, rfl, h1, h2, rfl⟩ := Teerex.unregisterProxiedEnclave_ok.mp h
    listed at hc
    refine ⟨_, Teerex.unregisterProxiedEnclave_ok.mpr ⟨b, e, rfl, hc.2 a rfl ▸ h1, hn ▸ h2, rfl⟩, ?_⟩
    listed
    refine ⟨hc.1, fun x hx => ?_⟩
    simp only [upd_apply, hc.2 x hx]
  | registerQuotingEnclave =>
    obtain ⟨a, q, rfl, h1, rfl⟩ := Teerex.registerQuotingEnclave_ok.mp h
    refine ⟨_, Teerex.registerQuotingEnclave_ok.mpr ⟨a, q, rfl, verifyQuotingEnclave_local hn ▸ h1, rfl⟩, ?_⟩
    listed
    rfl
  | registerTcbInfo =>
    obtain ⟨a, f, q, rfl, h1, rfl⟩ := Teerex.registerTcbInfo_ok.mp h
    listed at hc
    refine ⟨_, Teerex.registerTcbInfo_ok.mpr ⟨a, f, q, rfl, verifyTcbInfo_local hn ▸ h1, rfl⟩, ?_⟩
    listed
    simp only [Place.same] at hc ⊢
    rw [hc]
  | setSecurityFlags =>
    obtain ⟨h1, rfl⟩ := Teerex.setSecurityFlags_ok.mp h
    refine ⟨_, Teerex.setSecurityFlags_ok.mpr ⟨h1, rfl⟩, ?_⟩
    listed
    exact ⟨rfl, rfl⟩
  | invoke shard cy =>
    obtain ⟨a, h1, rfl⟩ := (invoke_ok (cy := cy)).mp h
    exact ⟨_, (invoke_ok (cy := cy)).mpr ⟨a, h1, rfl⟩, by simp [Call.changes]⟩
  | confirmProcessedParentchainBlock shard =>
    obtain ⟨a, e, l, h1, rfl⟩ := confirmProcessed_ok.mp h
    obtain rfl := h1.1
    listed at hc hr
    refine ⟨_, confirmProcessed_ok.mpr ⟨a, e, l, entered_local h1 hb hr.1 hc.1 hc.2.1, rfl⟩, ?_⟩
    listed
    exact ⟨by simp [upd_same], by simp [dueConfig, upd_same, hb, hc.2.1], hc.2.2⟩
  | shieldFunds shard =>
    obtain ⟨a, b, rfl, h1, rfl⟩ := shieldFunds_ok.mp h
    obtain ⟨b', h2, h3, h4, h5⟩ := transfer_local h1
      (hc (.money a) (by simp [Call.changes, Origin.own, sending]))
      (hc (.money shard) (by simp [Call.changes, Origin.own, sending]))
    exact ⟨_, shieldFunds_ok.mpr ⟨a, b', rfl, h2, rfl⟩, sending_local rfl rfl h3 h4 h5 hc⟩
  | unshieldFunds shard ben v hash =>
    simp only [Call.changes, List.forall_mem_append] at hc
    obtain ⟨hc, hm⟩ := hc
    listed at hc
    obtain ⟨⟨e1, e2, e3⟩, e4⟩ := hc
    obtain ⟨a, e, l, h1, hq⟩ := unshieldFunds_ok.mp h
    obtain rfl := h1.1
    listed at hr
    have he := entered_local h1 hb hr.1 e1 e2
    obtain (⟨h2, b, n, h3, h4, rfl⟩ | ⟨k, n, h2, h3, rfl⟩) := hq
    · obtain ⟨b', h5, h6, h7, h8⟩ := transfer_local h3 (hm (.money shard) (by simp [sending]))
        (hm (.money ben) (by simp [sending]))
      refine ⟨_, unshieldFunds_ok.mpr ⟨a, e, l, he, .inl ⟨e4 ▸ h2, b', n, h5, h4, rfl⟩⟩, ?_⟩
      simp only [Call.changes, List.forall_mem_append]
      refine ⟨?_, sending_local rfl rfl h6 h7 h8 hm⟩
      listed
      exact ⟨⟨by simp [upd_same], by simp [dueConfig, upd_same, hb, e2], e3⟩, by simp [Place.same, upd_same]⟩
    · refine ⟨_, unshieldFunds_ok.mpr ⟨a, e, l, he, .inr ⟨k, n, e4 ▸ h2, h3, rfl⟩⟩, ?_⟩
      simp only [Call.changes, List.forall_mem_append]
      refine ⟨?_, fun x hx => ?_⟩
      · listed
        exact ⟨⟨by simp [upd_same], by simp [dueConfig, upd_same, hb, e2], e3⟩, by simp [Place.same, upd_same]⟩
      · have := hm x hx
        simp only [sending, List.mem_append, List.mem_cons, List.not_mem_nil, or_false] at hx
        obtain ((rfl | rfl) | hx) := hx
        · exact this
        · exact this
        · split at hx
          · obtain rfl := List.mem_singleton.mp hx
            exact this
          · simp at hx
  | publishHash hash topics data =>
    obtain ⟨a, e, l, rfl, h1, h2, h3, h4, h5, rfl⟩ := publishHash_ok.mp h
    listed at hr
    simp only [Call.changes, Origin.own, ownShard, h1] at hc ⊢
    change ∀ x, x ∈ [Place.shard e.fingerprint] → _ at hc
    listed at hc
    refine ⟨_, publishHash_ok.mpr ⟨a, e, l, rfl, hr.1 ▸ h1, ?_, h3, h4, h5, rfl⟩, ?_⟩
    · rw [← touched_local hc.1, ← hb]; exact h2
    · change ∀ x, x ∈ [Place.shard e.fingerprint] → _
      listed
      exact ⟨by simp [upd_same], hc.2⟩
  | updateShardConfig shard cfg d =>
    obtain (⟨rfl, rfl⟩ | ⟨a, e, l, rfl, h1, h2, h3, h4, rfl⟩) := updateShardConfig_ok.mp h
    · listed at hc
      refine ⟨_, updateShardConfig_ok.mpr (.inl ⟨rfl, rfl⟩), ?_⟩
      listed
      exact ⟨hc.1, by simp [upd_same, newConfig_local hb hc.2.1], hc.2.2⟩
    · listed at hc hr
      refine ⟨_, updateShardConfig_ok.mpr (.inr ⟨a, e, l, rfl, hr.1 ▸ h1, ?_, ?_, h4, rfl⟩), ?_⟩
      · rw [← hb, ← (inEffect_local hc.2.1 s.block).1]; exact h2
      · rw [← hb, ← touched_local hc.1]; exact h3
      · listed
        exact ⟨by simp [upd_same], by simp [upd_same, newConfig_local hb hc.2.1], hc.2.2⟩
  | purgeEnclave shard =>
    obtain ⟨l, rfl, h1, h2, rfl⟩ := purgeEnclave_ok.mp h
    listed at hc
    refine ⟨_, purgeEnclave_ok.mpr ⟨l, rfl, hc.1 ▸ h1, h2, rfl⟩, ?_⟩
    listed
    exact ⟨by simp [upd_same], hc.2⟩
  | confirmImportedSidechainBlock shard anc cand =>
    obtain ⟨a, e, l, first, h1, h2, hq⟩ := Sidechain.confirmImported_ok.mp h
    obtain rfl := h1.1
    listed at hc hr
    have he := entered_local h1 hb hr.1 hc.1 hc.2.1
    obtain (⟨h3, rfl⟩ | ⟨h3, h4, rfl⟩) := hq
    · refine ⟨_, Sidechain.confirmImported_ok.mpr ⟨a, e, l, first, he, h2, .inl ⟨h3, rfl⟩⟩, ?_⟩
      listed
      exact ⟨by simp [upd_same], by simp [dueConfig, upd_same, hb, hc.2.1], hc.2.2⟩
    · refine ⟨_, Sidechain.confirmImported_ok.mpr ⟨a, e, l, first, he, h2, .inr ⟨h3, hc.2.2 ▸ h4, rfl⟩⟩, ?_⟩
      listed
      exact ⟨by simp [upd_same], by simp [dueConfig, upd_same, hb, hc.2.1], by simp [upd_same]⟩
  | addToWhitelist =>
    obtain ⟨rfl, h1, h2, h3, rfl⟩ := Teeracle.addToWhitelist_ok.mp h
    listed at hc
    refine ⟨_, Teeracle.addToWhitelist_ok.mpr ⟨rfl, h1, hc ▸ h2, hc ▸ h3, rfl⟩, ?_⟩
    listed
    simp only [Place.same] at hc ⊢
    simp [upd_same, hc]
  | removeFromWhitelist =>
    obtain ⟨rfl, h2, rfl⟩ := Teeracle.removeFromWhitelist_ok.mp h
    listed at hc
    refine ⟨_, Teeracle.removeFromWhitelist_ok.mpr ⟨rfl, hc ▸ h2, rfl⟩, ?_⟩
    listed
    simp only [Place.same] at hc ⊢
    simp [upd_same, hc]
  | updateOracle =>
    obtain ⟨a, e, rfl, h1, h2, h3, h4, h5, rfl⟩ := Teeracle.updateOracle_ok.mp h
    listed at hr
    refine ⟨_, Teeracle.updateOracle_ok.mpr ⟨a, e, rfl, hr.2.1 ▸ h1, hr.1 ▸ h2, h3, h4, h5, rfl⟩, ?_⟩
    listed
    simp [Place.same, upd_same]
  | updateExchangeRate =>
    obtain ⟨a, e, rfl, h1, h2, h3, rfl⟩ := Teeracle.updateExchangeRate_ok.mp h
    listed at hr
    refine ⟨_, Teeracle.updateExchangeRate_ok.mpr ⟨a, e, rfl, hr.2.1 ▸ h1, h2, hr.1 ▸ h3, rfl⟩, ?_⟩
    listed
    simp [Place.same, upd_same]
  | claims q =>
    cases q with
    | claim d =>
      obtain ⟨g, rfl, h1, h2, hq⟩ := Claims.claim_ok.mp h
      obtain ⟨due, bal, h3, h4, hp, rfl⟩ := Claims.processClaim_ok.mp hq
      listed at hc
      obtain ⟨⟨e1, e2, e3, e4, e5⟩, e6, e7, e8⟩ := hc
      obtain ⟨bal', h5, h6, h7, h8⟩ := paid_local hp hb e3 e6 e7 e8
      refine ⟨_, Claims.claim_ok.mpr ⟨g, rfl, h1, e4 ▸ h2, Claims.processClaim_ok.mpr ⟨due, bal', e1 ▸ h3, e2 ▸ h4, h5,
        rfl⟩⟩, ?_⟩
      listed
      exact ⟨⟨by simp [e1], by simp [e2], by simp [e3], by simp [e4], e5⟩, h6, h7, h8⟩
    | claimAttest d =>
      obtain ⟨g, rfl, h1, h2, hq⟩ := Claims.claimAttest_ok.mp h
      obtain ⟨due, bal, h3, h4, hp, rfl⟩ := Claims.processClaim_ok.mp hq
      listed at hc
      obtain ⟨⟨e1, e2, e3, e4, e5⟩, e6, e7, e8⟩ := hc
      obtain ⟨bal', h5, h6, h7, h8⟩ := paid_local hp hb e3 e6 e7 e8
      refine ⟨_, Claims.claimAttest_ok.mpr ⟨g, rfl, h1, e4 ▸ h2, Claims.processClaim_ok.mpr ⟨due, bal', e1 ▸ h3, e2 ▸ h4,
        h5, rfl⟩⟩, ?_⟩
      listed
      exact ⟨⟨by simp [e1], by simp [e2], by simp [e3], by simp [e4], e5⟩, h6, h7, h8⟩
    | attest =>
      obtain ⟨a, g, s1, rfl, h1, h2, hq, rfl⟩ := Claims.attest_ok.mp h
      obtain ⟨due, bal, h3, h4, hp, rfl⟩ := Claims.processClaim_ok.mp hq
      listed at hc
      obtain ⟨⟨e1, e2, e3, e4, e5⟩, e8, e6, e7⟩ := hc
      obtain ⟨bal', h5, h6, h7, h8⟩ := paid_local hp hb e3 e6 e7 e8
      refine ⟨_, Claims.attest_ok.mpr ⟨a, g, _, rfl, e5 ▸ h1, e4 ▸ h2, Claims.processClaim_ok.mpr ⟨due, bal', e1 ▸ h3,
        e2 ▸ h4, h5, rfl⟩, rfl⟩, ?_⟩
      listed
      exact ⟨⟨by simp [e1], by simp [e2], by simp [e3], by simp [e4], by simp [e5]⟩, h8, h6, h7⟩
    | mintClaim =>
      obtain ⟨n, rfl, h1, rfl⟩ := Claims.mintClaim_ok.mp h
      listed at hc
      obtain ⟨e1, e2, e3, e4, e5⟩ := hc
      refine ⟨_, Claims.mintClaim_ok.mpr ⟨n, rfl, e2 ▸ h1, rfl⟩, ?_⟩
      listed
      exact ⟨by simp [e1], rfl, by simp [e3], by simp [e4], e5⟩
    | moveClaim =>
      obtain ⟨h1, rfl⟩ := Claims.moveClaim_ok.mp h
      listed at hc
      obtain ⟨e1, e2, e3, e4, e5⟩ := hc
      refine ⟨_, Claims.moveClaim_ok.mpr ⟨h1, rfl⟩, ?_⟩
      listed
      exact ⟨by simp [e1], e2, by simp [e3], by simp [e4], by simp [Claims.movedPreclaims, e5]⟩
  | registerReserveAsset =>
    obtain ⟨h1, h2, h3, h4, rfl⟩ := AssetRegistry.registerReserveAsset_ok.mp h
    listed at hc hr
    refine ⟨_, AssetRegistry.registerReserveAsset_ok.mpr ⟨h1, hr ▸ h2, hc.1 ▸ h3, h4, rfl⟩, ?_⟩
    listed
    exact ⟨by simp [hc.1], by simp [hc.2]⟩
  | unregisterReserveAsset =>
    obtain ⟨l, h1, h2, rfl⟩ := AssetRegistry.unregisterReserveAsset_ok.mp h
    listed at hc
    refine ⟨_, AssetRegistry.unregisterReserveAsset_ok.mpr ⟨l, h1, hc.1 ▸ h2, rfl⟩, ?_⟩
    listed
    exact ⟨by simp [hc.1], by simp [hc.2]⟩
  | sendSwapUmp =>
    obtain ⟨g, h1, h2, h3, h4, h5, rfl⟩ := XcmTransactor.sendSwapUmp_ok.mp h
    listed at hc
    refine ⟨_, XcmTransactor.sendSwapUmp_ok.mpr ⟨g, h1, h2, h3, h4, hc ▸ h5, rfl⟩, ?_⟩
    listed
    simp only [Place.same] at hc ⊢
    rw [hc]
  | balTransfer dst v =>
    obtain ⟨a, b, rfl, h1, rfl⟩ := balTransfer_ok.mp h
    obtain ⟨b', h2, h3, h4, h5⟩ := transfer_local h1
      (hc (.money a) (by simp [Call.changes, Origin.own, sending]))
      (hc (.money dst) (by simp [Call.changes, Origin.own, sending]))
    exact ⟨_, balTransfer_ok.mpr ⟨a, b', rfl, h2, rfl⟩, sending_local rfl rfl h3 h4 h5 hc⟩

/-- The same, for success alone. -/
theorem ok_iff_of_cannotTell {c : Cfg} {s t : Chain} {o : Origin} {k : Call} (hk : k.cannotTell c s t o) :
    (exec c s (.ext o k)).isOk = (exec c t (.ext o k)).isOk := by
  have back : k.cannotTell c t s o := by
    refine ⟨hk.1.symm, hk.2.1.symm, fun x hx => (hk.2.2 x ?_).symm⟩
    rw [changes_local hk] at hx
    exact hx
  cases h : exec c s (.ext o k) with
  | ok s' =>
    obtain ⟨t', h1, _⟩ := C125_same_effect c s t s' o k hk h
    rw [h1]; rfl
  | error e =>
    cases h1 : exec c t (.ext o k) with
    | error e' => rfl
    | ok t' =>
      obtain ⟨s', h2, _⟩ := C125_same_effect c t s t' o k back h1
      rw [h] at h2; simp at h2

/-! ### C126 Unrelated calls may come in any order -/

/-- A call leaves alone what an unrelated one looks at. -/
theorem step_cannotTell {c : Cfg} {s : Chain} {o₁ o₂ : Origin} {k₁ k₂ : Call} (h : Unrelated c s o₁ k₁ o₂ k₂) :
    k₂.cannotTell c s (step c s (.ext o₁ k₁)) o₂ := by
  cases h1 : exec c s (.ext o₁ k₁) with
  | error e =>
    rw [step_of_error h1]
    exact ⟨rfl, rfl, fun x _ => .refl s x⟩
  | ok s' =>
    rw [step_of_ok h1]
    obtain ⟨f1, f2, f3⟩ := C124_only_own_places c s s' o₁ k₁ h1
    refine ⟨f1.symm, f2.symm, fun x hx => f3 x fun hc => ?_⟩
    obtain ⟨g1, g2⟩ := (h x).1 hc
    exact hx.elim g1 g2

theorem Unrelated.symm {c : Cfg} {s : Chain} {o₁ o₂ : Origin} {k₁ k₂ : Call} (h : Unrelated c s o₁ k₁ o₂ k₂) :
    Unrelated c s o₂ k₂ o₁ k₁ := by
  intro x
  refine ⟨fun h2 => ⟨fun h1 => ((h x).1 h1).1 h2, (h x).2 h2⟩, fun h1 => ((h x).1 h1).2⟩

/-- **C126** Two calls of which neither changes what the other one looks at or changes: in whatever order they are
included, each of them succeeds or fails as it would alone, and everything in the storage ends up the same. The
hypothesis is met by the example for C126 below. -/
theorem C126_any_order (c : Cfg) (s : Chain) (o₁ o₂ : Origin) (k₁ k₂ : Call) (h : Unrelated c s o₁ k₁ o₂ k₂) :
    (exec c (step c s (.ext o₁ k₁)) (.ext o₂ k₂)).isOk = (exec c s (.ext o₂ k₂)).isOk ∧
      (exec c (step c s (.ext o₂ k₂)) (.ext o₁ k₁)).isOk = (exec c s (.ext o₁ k₁)).isOk ∧
      ∀ x : Place, x.same (run c s [.ext o₁ k₁, .ext o₂ k₂]) (run c s [.ext o₂ k₂, .ext o₁ k₁]) := by
  have t1 := step_cannotTell h
  have t2 := step_cannotTell h.symm
  refine ⟨(ok_iff_of_cannotTell t1).symm, (ok_iff_of_cannotTell t2).symm, fun x => ?_⟩
  simp only [run, List.foldl_cons, List.foldl_nil]
  cases h1 : exec c s (.ext o₁ k₁) with
  | error e1 =>
    rw [step_of_error h1] at t1 ⊢
    have n1 : ∃ e, exec c (step c s (.ext o₂ k₂)) (.ext o₁ k₁) = .error e := by
      have := ok_iff_of_cannotTell t2
      rw [h1] at this
      cases h3 : exec c (step c s (.ext o₂ k₂)) (.ext o₁ k₁) with
      | error e => exact ⟨e, rfl⟩
      | ok _ => rw [h3] at this; simp [Except.isOk, Except.toBool] at this
    obtain ⟨e, n1⟩ := n1
    rw [step_of_error n1]
    exact .refl _ x
  | ok s1 =>
    rw [step_of_ok h1] at t1 ⊢
    cases h2 : exec c s (.ext o₂ k₂) with
    | error e2 =>
      rw [step_of_error h2] at t2 ⊢
      rw [step_of_ok h1]
      have := ok_iff_of_cannotTell t1
      rw [h2] at this
      cases h3 : exec c s1 (.ext o₂ k₂) with
      | error e => rw [step_of_error h3]; exact .refl _ x
      | ok _ => rw [h3] at this; simp [Except.isOk, Except.toBool] at this
    | ok s2 =>
      rw [step_of_ok h2] at t2 ⊢
      obtain ⟨s12, a1, a2, a3⟩ := C125_same_effect c s s1 s2 o₂ k₂ t1 h2
      obtain ⟨s21, b1, b2, b3⟩ := C125_same_effect c s s2 s1 o₁ k₁ t2 h1
      rw [step_of_ok a1, step_of_ok b1]
      have f1 := (C124_only_own_places c s s1 o₁ k₁ h1).2.2 x
      have f2 := (C124_only_own_places c s s2 o₂ k₂ h2).2.2 x
      have f12 := (C124_only_own_places c s1 s12 o₂ k₂ a1).2.2 x
      have f21 := (C124_only_own_places c s2 s21 o₁ k₁ b1).2.2 x
      rw [a2] at f12
      rw [b2] at f21
      by_cases c1 : x ∈ k₁.changes c s o₁
      · exact (f12 ((h x).1 c1).1).symm.trans (b3 x c1)
      · by_cases c2 : x ∈ k₂.changes c s o₂
        · exact (a3 x c2).symm.trans (f21 c1)
        · exact (f12 c2).symm.trans ((f1 c1).symm.trans ((f2 c2).trans (f21 c1)))

/-- None of the calls of a history changes, at the time it is included, a place that matters. -/
def NeverChanges (c : Cfg) (P : Place → Prop) : Chain → List (Origin × Call) → Prop
  | _, [] => True
  | s, (o, k) :: l => (∀ x ∈ k.changes c s o, ¬ P x) ∧ NeverChanges c P (step c s (.ext o k)) l

theorem neverChanges_same {c : Cfg} {P : Place → Prop} {s : Chain} {l : List (Origin × Call)}
    (h : NeverChanges c P s l) :
    (run c s (l.map fun p => .ext p.1 p.2)).now = s.now ∧ (run c s (l.map fun p => .ext p.1 p.2)).block = s.block ∧
      ∀ x, P x → x.same s (run c s (l.map fun p => .ext p.1 p.2)) := by
  induction l generalizing s with
  | nil => exact ⟨rfl, rfl, fun x _ => .refl s x⟩
  | cons p l ih =>
    obtain ⟨o, k⟩ := p
    obtain ⟨h1, h2⟩ := h
    obtain ⟨i1, i2, i3⟩ := ih h2
    have key : (step c s (.ext o k)).now = s.now ∧ (step c s (.ext o k)).block = s.block ∧
        ∀ x, P x → x.same s (step c s (.ext o k)) := by
      cases he : exec c s (.ext o k) with
      | error e => rw [step_of_error he]; exact ⟨rfl, rfl, fun x _ => .refl s x⟩
      | ok s' =>
        rw [step_of_ok he]
        obtain ⟨f1, f2, f3⟩ := C124_only_own_places c s s' o k he
        exact ⟨f1, f2, fun x hx => f3 x fun hc => h1 x hc hx⟩
    simp only [List.map_cons, run_cons]
    exact ⟨i1.trans key.1, i2.trans key.2.1, fun x hx => (key.2.2 x hx).trans (i3 x hx)⟩

/-- **C126** Nobody can make a call fail, or make it do something else, by getting other calls included before it in
the same block, as long as those do not change what the call looks at or changes. -/
theorem C126_undisturbed (c : Cfg) (s : Chain) (o : Origin) (k : Call) (l : List (Origin × Call))
    (h : NeverChanges c (fun x => x ∈ k.changes c s o ∨ x ∈ k.consults o) s l) :
    let t := run c s (l.map fun p => .ext p.1 p.2)
    (exec c t (.ext o k)).isOk = (exec c s (.ext o k)).isOk ∧
      ∀ x ∈ k.changes c s o, x.same (step c s (.ext o k)) (step c t (.ext o k)) := by
  intro t
  obtain ⟨h1, h2, h3⟩ := neverChanges_same h
  have ht : k.cannotTell c s t o := ⟨h1.symm, h2.symm, h3⟩
  refine ⟨(ok_iff_of_cannotTell ht).symm, fun x hx => ?_⟩
  cases he : exec c s (.ext o k) with
  | ok s' =>
    obtain ⟨t', a1, _, a3⟩ := C125_same_effect c s t s' o k ht he
    rw [step_of_ok he, step_of_ok a1]
    exact a3 x hx
  | error e =>
    have := ok_iff_of_cannotTell ht
    rw [he] at this
    cases h4 : exec c t (.ext o k) with
    | error e' => rw [step_of_error he, step_of_error h4]; exact h3 x (.inl hx)
    | ok _ => rw [h4] at this; simp [Except.isOk, Except.toBool] at this

/-- The lists are finite: whether two calls are related can be computed. -/
theorem unrelated_of_lists {c : Cfg} {s : Chain} {o₁ o₂ : Origin} {k₁ k₂ : Call}
    (h1 : ∀ x ∈ k₁.changes c s o₁, x ∉ k₂.changes c s o₂ ∧ x ∉ k₂.consults o₂)
    (h2 : ∀ x ∈ k₂.changes c s o₂, x ∉ k₁.consults o₁) : Unrelated c s o₁ k₁ o₂ k₂ :=
  fun x => ⟨h1 x, h2 x⟩

/-- C124: Alice's withdrawal succeeds, Bob's money is not on the list of places it may change. -/
example : (exec cfg (run cfg start [.ext (.signed alice) (.bond 100), .ext (.signed alice) (.unbond 50),
      .newBlock 1000]) (.ext (.signed alice) .withdrawUnbonded)).isOk = true ∧
    Place.money bob ∉ Call.changes cfg start (.signed alice) .withdrawUnbonded := by
  decide +kernel

/-- C125: Alice's bonding cannot tell whether Bob bonded before, and it succeeds. -/
example : Call.cannotTell cfg start (run cfg start [.ext (.signed bob) (.bond 100)]) (.signed alice) (.bond 300) ∧
    (exec cfg start (.ext (.signed alice) (.bond 300))).isOk = true := by
  refine ⟨⟨by decide +kernel, by decide +kernel, fun x hx => ?_⟩, by decide +kernel⟩
  simp only [Call.changes, Call.consults, Origin.own, List.mem_cons, List.not_mem_nil, or_false] at hx
  obtain (rfl | rfl) := hx
  · show start.td.bonds alice = (run cfg start [.ext (.signed bob) (.bond 100)]).td.bonds alice
    decide +kernel
  · refine ⟨by decide +kernel, fun id => ?_⟩
    cases id <;> decide +kernel

/-- C126: An enclave unshields to Carol while Bob bonds, and while an enclave is registered by somebody else. -/
example : let s := run cfg start [enroll alice 7, shield bob 100]
    Unrelated cfg s (.signed alice) (.unshieldFunds shard7 carol 60 hash1) (.signed bob) (.bond 100) ∧
    Unrelated cfg s (.signed alice) (.unshieldFunds shard7 carol 60 hash1) (.signed carol)
      (.registerSgxEnclave (bytes 32 7) none (.skip false)) ∧
    (exec cfg s (.ext (.signed alice) (.unshieldFunds shard7 carol 60 hash1))).isOk = true ∧
    (exec cfg s (.ext (.signed bob) (.bond 100))).isOk = true := by
  refine ⟨unrelated_of_lists ?_ ?_, unrelated_of_lists ?_ ?_, ?_, ?_⟩ <;> decide +kernel

/-- ... and two that are related: what is unshielded to Bob can be bonded by Bob. -/
example : ¬ Unrelated cfg start (.signed alice) (.unshieldFunds shard7 bob 60 hash1) (.signed bob) (.bond 100) := by
  intro h
  exact ((h (.money bob)).1 (by decide +kernel)).1 (by decide +kernel)

/-- C126: Bob's and Carol's calls do not touch what Alice's bonding looks at. -/
example : NeverChanges cfg (fun x => x ∈ Call.changes cfg start (.signed alice) (.bond 300) ∨
      x ∈ Call.consults (.signed alice) (.bond 300)) start
    [(.signed bob, .bond 100), (.signed carol, .updateOther bob), (.signed bob, .unbond 20)] := by
  refine ⟨?_, ?_, ?_, True.intro⟩ <;> decide +kernel

end Verif
