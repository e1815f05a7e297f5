import Verif.Proofs.Frame

/-!
# Facts about the currency
-/

namespace Verif

namespace Balances

theorem setLock_lock (b : Balances) (id id' : LockId) (a x : AccountId) (n : Nat) :
    (b.setLock id a n).lock id' x = if id' = id ∧ x = a ∧ n ≠ 0 then n else b.lock id' x := by
  unfold setLock
  by_cases hn : n = 0
  · simp [hn]
  · simp only [hn, if_false, upd]
    by_cases h1 : id' = id
    · by_cases h2 : x = a <;> simp [h1, h2, hn]
    · simp [h1]

theorem removeLock_lock (b : Balances) (id id' : LockId) (a x : AccountId) :
    (b.removeLock id a).lock id' x = if id' = id ∧ x = a then 0 else b.lock id' x := by
  unfold removeLock
  simp only [upd]
  by_cases h1 : id' = id
  · by_cases h2 : x = a <;> simp [h1, h2]
  · simp [h1]

@[simp] theorem setLock_free (b : Balances) (id : LockId) (a : AccountId) (n : Nat) :
    (b.setLock id a n).free = b.free := by unfold setLock; split <;> rfl
@[simp] theorem removeLock_free (b : Balances) (id : LockId) (a : AccountId) :
    (b.removeLock id a).free = b.free := rfl
@[simp] theorem setLock_issuance (b : Balances) (id : LockId) (a : AccountId) (n : Nat) :
    (b.setLock id a n).issuance = b.issuance := by unfold setLock; split <;> rfl
@[simp] theorem removeLock_issuance (b : Balances) (id : LockId) (a : AccountId) :
    (b.removeLock id a).issuance = b.issuance := rfl
@[simp] theorem setLock_schedules (b : Balances) (id : LockId) (a : AccountId) (n : Nat) :
    (b.setLock id a n).schedules = b.schedules := by unfold setLock; split <;> rfl

theorem lock_le_frozen (b : Balances) (id : LockId) (a : AccountId) : b.lock id a ≤ b.frozen a := by
  unfold frozen; cases id <;> omega

/-- All facts about a successful transfer. -/
theorem transfer_ok {ed balMax : Nat} {b b' : Balances} {src dst : AccountId} {v : Nat}
    (h : b.transfer ed balMax src dst v = .ok b') :
    ((v = 0 ∨ src = dst) ∧ b' = b) ∨
    (v ≠ 0 ∧ src ≠ dst ∧ v ≤ b.free src ∧ v ≤ b.reducible ed src ∧ b.free dst + v ≤ balMax ∧
      ed ≤ b.free dst + v ∧
      b' = { b with
        free := upd (upd b.free src (if b.free src - v < ed then 0 else b.free src - v)) dst (b.free dst + v)
        issuance := b.issuance -
          ((b.free src - v) - (if b.free src - v < ed then 0 else b.free src - v)) }) := by
  unfold transfer at h
  split at h
  · left; simp_all
  · right
    split at h
    · simp at h
    · split at h
      · simp at h
      · split at h
        · simp at h
        · split at h
          · simp at h
          · rename_i h1 h2 h3 h4 h5
            simp only [Except.ok.injEq] at h
            subst h
            simp only [not_or] at h1
            refine ⟨h1.1, h1.2, by omega, by omega, by omega, by omega, rfl⟩

theorem transfer_lock {ed balMax : Nat} {b b' : Balances} {src dst : AccountId} {v : Nat}
    (h : b.transfer ed balMax src dst v = .ok b') : b'.lock = b.lock := by
  rcases transfer_ok h with ⟨_, rfl⟩ | ⟨_, _, _, _, _, _, rfl⟩ <;> rfl

theorem transfer_schedules {ed balMax : Nat} {b b' : Balances} {src dst : AccountId} {v : Nat}
    (h : b.transfer ed balMax src dst v = .ok b') : b'.schedules = b.schedules := by
  rcases transfer_ok h with ⟨_, rfl⟩ | ⟨_, _, _, _, _, _, rfl⟩ <;> rfl

/-- A transfer never takes locked money. -/
theorem transfer_respects_lock {ed balMax : Nat} {b b' : Balances} {src dst x : AccountId} {v : Nat}
    {id : LockId} (h : b.transfer ed balMax src dst v = .ok b') (hl : b.lock id x ≤ b.free x) :
    b.lock id x ≤ b'.free x := by
  rcases transfer_ok h with ⟨_, rfl⟩ | ⟨hv, hne, h1, h2, _, _, rfl⟩
  · exact hl
  · have hf := lock_le_frozen b id x
    unfold reducible at h2
    simp only [upd]
    by_cases hd : x = dst
    · subst hd; simp only [if_true]; omega
    · simp only [hd, if_false]
      by_cases hs : x = src
      · subst hs
        simp only [if_true]
        split at h2
        · omega
        · split <;> omega
      · simp only [hs, if_false]; exact hl

@[simp] theorem depositCreating_lock (ed balMax : Nat) (b : Balances) (who : AccountId) (v : Nat) :
    (b.depositCreating ed balMax who v).lock = b.lock := by
  unfold depositCreating; split <;> rfl

@[simp] theorem depositCreating_schedules (ed balMax : Nat) (b : Balances) (who : AccountId) (v : Nat) :
    (b.depositCreating ed balMax who v).schedules = b.schedules := by
  unfold depositCreating; split <;> rfl

theorem depositCreating_free_le (ed balMax : Nat) (b : Balances) (who x : AccountId) (v : Nat) :
    b.free x ≤ (b.depositCreating ed balMax who v).free x := by
  unfold depositCreating; split
  · exact Nat.le_refl _
  · simp only [upd]; split
    · subst_vars; omega
    · exact Nat.le_refl _

@[simp] theorem updateVesting_free (b : Balances) (n : Nat) (a : AccountId) (l : List VestingInfo) :
    (b.updateVesting n a l).free = b.free := rfl
@[simp] theorem updateVesting_issuance (b : Balances) (n : Nat) (a : AccountId) (l : List VestingInfo) :
    (b.updateVesting n a l).issuance = b.issuance := rfl

theorem updateVesting_lock (b : Balances) (n : Nat) (a x : AccountId) (l : List VestingInfo) (id : LockId)
    (h : id ≠ .vesting) : (b.updateVesting n a l).lock id x = b.lock id x := by
  simp [updateVesting, upd, h]

theorem addVesting_ok {ms : Nat} {b b' : Balances} {n : Nat} {a : AccountId} {v : VestingInfo}
    (h : b.addVesting ms n a v = .ok b') :
    (v.locked = 0 ∧ b' = b) ∨ (v.locked ≠ 0 ∧ v.perBlock ≠ 0 ∧ (b.schedules a).length < ms ∧
      b' = b.updateVesting n a (b.schedules a ++ [v])) := by
  unfold addVesting at h
  split at h
  · left; simp_all
  · split at h
    · simp at h
    · split at h
      · simp at h
      · rename_i h1 h2 h3
        simp only [Except.ok.injEq] at h
        exact .inr ⟨h1, h2, by omega, h.symm⟩

theorem addVesting_free {ms : Nat} {b b' : Balances} {n : Nat} {a : AccountId} {v : VestingInfo}
    (h : b.addVesting ms n a v = .ok b') : b'.free = b.free ∧ b'.issuance = b.issuance := by
  rcases addVesting_ok h with ⟨_, rfl⟩ | ⟨_, _, _, rfl⟩ <;> simp

theorem addVesting_lock {ms : Nat} {b b' : Balances} {n : Nat} {a x : AccountId} {v : VestingInfo}
    {id : LockId} (h : b.addVesting ms n a v = .ok b') (hid : id ≠ .vesting) :
    b'.lock id x = b.lock id x := by
  rcases addVesting_ok h with ⟨_, rfl⟩ | ⟨_, _, _, rfl⟩
  · rfl
  · exact updateVesting_lock _ _ _ _ _ _ hid

end Balances

theorem paid_cases {c : Cfg} {s : Chain} {g : EthAddr} {d : AccountId} {due : Nat} {bal : Balances}
    (h : Claims.Paid c s g d due bal) :
    bal.free = (s.bal.depositCreating c.ed c.balMax d due).free ∧
    bal.issuance = (s.bal.depositCreating c.ed c.balMax d due).issuance ∧
    ∀ id x, id ≠ .vesting → bal.lock id x = s.bal.lock id x := by
  unfold Claims.Paid at h
  split at h
  · obtain ⟨_, h⟩ := h
    refine ⟨(Balances.addVesting_free h).1, (Balances.addVesting_free h).2, fun id x hid => ?_⟩
    rw [Balances.addVesting_lock h hid]; simp
  · subst h; simp

end Verif
