import Verif.Proofs.Balances
import Verif.Spec.Teerdays

/-!
# Effects of one operation on the teerdays view of one account
-/

namespace Verif

/-- The account an event is about. -/
def TdEvent.who : TdEvent → AccountId
  | .bonded a _ => a
  | .unbonded a _ _ => a
  | .tokenTimeUpdated a _ => a
  | .withdrawn a _ => a

/-- What teerdays knows about one account. -/
structure TdView where
  bond : Option Bond
  pending : Option (Nat × Nat)
  lock : Nat
  events : List TdEvent

def tdView (s : Chain) (a : AccountId) : TdView :=
  { bond := s.td.bonds a, pending := s.td.pending a, lock := tdLock s a
    events := s.td.events.filter fun e => decide (e.who = a) }

/-- Effect of a successful operation on the view of one account. -/
inductive TdEffect (c : Cfg) (a : AccountId) (s s' : Chain) : Op → Prop
  | same {op : Op} (h : ¬ OwnTdCall a op) (hv : tdView s' a = tdView s a) : TdEffect c a s s' op
  | updated {o : AccountId} {b : Bond} (hn : s'.now = s.now) (hb : s.td.bonds a = some b)
      (hv : tdView s' a = { tdView s a with
        bond := some (b.update c.balMax s.now)
        events := .tokenTimeUpdated a (b.update c.balMax s.now) :: (tdView s a).events }) :
      TdEffect c a s s' (.ext (.signed o) (.updateOther a))
  | bond {v : Nat} (hn : s'.now = s.now) (hf : s'.bal.free = s.bal.free) (hb : s.td.bonds a = none)
      (he : c.ed ≤ v)
      (hv : tdView s' a =
        { bond := some { value := min v (s.bal.free a), lastUpdated := s.now, tokentime := 0 }
          pending := s.td.pending a
          lock := if min v (s.bal.free a) = 0 then tdLock s a else min v (s.bal.free a)
          events := .bonded a (min v (s.bal.free a)) :: (tdView s a).events }) :
      TdEffect c a s s' (.ext (.signed a) (.bond v))
  | extra {v new : Nat} {b : Bond} (hn : s'.now = s.now) (hf : s'.bal.free = s.bal.free)
      (hb : s.td.bonds a = some b)
      (hp : s.td.pending a = none) (he : c.ed ≤ v)
      (hnew : new = satAdd c.balMax b.value (min v (s.bal.free a - b.value)))
      (hv : tdView s' a =
        { bond := some { (b.update c.balMax s.now) with value := new }
          pending := none
          lock := if new = 0 then tdLock s a else new
          events := .bonded a (min v (s.bal.free a - b.value)) ::
            .tokenTimeUpdated a (b.update c.balMax s.now) :: (tdView s a).events }) :
      TdEffect c a s s' (.ext (.signed a) (.bondExtra v))
  | unbond {v due left : Nat} {b : Bond} (hn : s'.now = s.now) (hf : s'.bal = s.bal)
      (hb : s.td.bonds a = some b)
      (hp : s.td.pending a = none) (he : c.ed ≤ v)
      (hd : plainAdd c c.momentMax s.now c.unlockPeriod = .ok due)
      (hleft : left = Teerdays.leftTokentime c.balMax (b.update c.balMax s.now) (b.value - v))
      (hv : tdView s' a =
        { bond := if b.value - v < c.ed then none else
            some { value := b.value - v, lastUpdated := s.now, tokentime := left }
          pending := some (due, b.value - (b.value - v))
          lock := tdLock s a
          events := .unbonded a (b.value - (b.value - v)) ((b.update c.balMax s.now).tokentime - left) ::
            .tokenTimeUpdated a (b.update c.balMax s.now) :: (tdView s a).events }) :
      TdEffect c a s s' (.ext (.signed a) (.unbond v))
  | withdraw {due amount : Nat} (hn : s'.now = s.now) (hf : s'.bal.free = s.bal.free)
      (hp : s.td.pending a = some (due, amount))
      (hd : due ≤ s.now)
      (hv : tdView s' a =
        { bond := s.td.bonds a
          pending := none
          lock := tdLock s a - min amount (tdLock s a)
          events := .withdrawn a (min amount (tdLock s a)) :: (tdView s a).events }) :
      TdEffect c a s s' (.ext (.signed a) .withdrawUnbonded)

theorem tdView_ext {s s' : Chain} {a : AccountId} (h1 : s'.td = s.td) (h2 : tdLock s' a = tdLock s a) :
    tdView s' a = tdView s a := by
  simp [tdView, h1, h2]

/-- Operations other than teerdays calls do not touch the teerdays lock. -/
theorem exec_tdLock {c : Cfg} {s s' : Chain} {op : Op} (h : exec c s op = .ok s')
    (hp : Part.teerdays ∉ op.parts) (x : AccountId) : tdLock s' x = tdLock s x := by
  by_cases hc : Part.currency ∈ op.parts
  rotate_left
  · have := exec_frame h _ hc
    simp only [Part.Same] at this
    simp [tdLock, this]
  cases op with
  | newBlock => simp [Op.parts] at hc
  | setAsset => simp [Op.parts] at hc
  | destroyAsset => simp [Op.parts] at hc
  | mint => simp only [exec, Except.ok.injEq] at h; subst h; simp [tdLock]
  | slash => simp only [exec, Except.ok.injEq] at h; subst h; simp [tdLock]
  | setOtherLock => simp only [exec, Except.ok.injEq] at h; subst h; simp [tdLock, upd]
  | vest =>
    simp only [exec, Except.ok.injEq] at h; subst h
    simp [tdLock, Balances.updateVesting_lock]
  | addVesting =>
    simp only [exec] at h
    split at h
    · rename_i hb
      simp only [Except.ok.injEq] at h; subst h
      exact Balances.addVesting_lock hb (by decide)
    · simp at h
  | ext o k =>
    cases k with
    | bond => simp [Op.parts, Call.parts] at hp
    | bondExtra => simp [Op.parts, Call.parts] at hp
    | withdrawUnbonded => simp [Op.parts, Call.parts] at hp
    | shieldFunds =>
      obtain ⟨_, _, _, h1, rfl⟩ := EnclaveBridge.shieldFunds_ok.mp h
      simp [tdLock, Balances.transfer_lock h1]
    | unshieldFunds =>
      obtain ⟨_, _, _, _, ⟨_, _, _, h1, _, rfl⟩ | ⟨_, _, _, _, rfl⟩⟩ := EnclaveBridge.unshieldFunds_ok.mp h
      · simp [tdLock, Balances.transfer_lock h1]
      · simp [tdLock]
    | balTransfer =>
      obtain ⟨_, _, _, h1, rfl⟩ := balTransfer_ok.mp h
      simp [tdLock, Balances.transfer_lock h1]
    | claims k =>
      have key : ∀ {s s' : Chain} {g d}, Claims.processClaim c s g d = .ok s' → tdLock s' x = tdLock s x := by
        intro s s' g d h
        obtain ⟨_, _, _, _, hp, rfl⟩ := Claims.processClaim_ok.mp h
        exact (paid_cases hp).2.2 _ _ (by decide)
      cases k with
      | claim => obtain ⟨_, _, _, _, hp⟩ := Claims.claim_ok.mp h; exact key hp
      | claimAttest => obtain ⟨_, _, _, _, hp⟩ := Claims.claimAttest_ok.mp h; exact key hp
      | attest => obtain ⟨_, _, _, _, _, _, hp, rfl⟩ := Claims.attest_ok.mp h; have := key hp; exact this
      | mintClaim => simp [Op.parts, Call.parts] at hc
      | moveClaim => simp [Op.parts, Call.parts] at hc
    | _ => simp [Op.parts, Call.parts] at hc

theorem tdEffect {c : Cfg} {s s' : Chain} {op : Op} (h : exec c s op = .ok s') (a : AccountId) :
    TdEffect c a s s' op := by
  by_cases hp : Part.teerdays ∈ op.parts
  rotate_left
  · refine .same ?_ (tdView_ext (exec_frame h _ hp) (exec_tdLock h hp a))
    rintro (⟨v, rfl⟩ | ⟨v, rfl⟩ | ⟨v, rfl⟩ | rfl) <;> simp [Op.parts, Call.parts] at hp
  cases op with
  | ext o k =>
    cases k with
    | bond v =>
      obtain ⟨x, rfl, h1, h2, rfl⟩ := Teerdays.bond_ok.mp h
      by_cases hx : x = a
      · subst hx
        refine .bond rfl (by simp) h1 h2 ?_
        simp only [tdView, tdLock, upd_same, Balances.setLock_lock, TdEvent.who, List.filter_cons_of_pos,
          decide_true]
        congr 1
        split <;> split <;> simp_all
      · refine .same (by simp [OwnTdCall, hx]) ?_
        simp [tdView, tdLock, Balances.setLock_lock, TdEvent.who, hx, upd, Ne.symm hx]
    | bondExtra v =>
      obtain ⟨x, b, rfl, h1, h2, h3, rfl⟩ := Teerdays.bondExtra_ok.mp h
      by_cases hx : x = a
      · subst hx
        refine .extra rfl (by simp) h3 h1 h2 rfl ?_
        simp only [tdView, tdLock, upd_same, Balances.setLock_lock, TdEvent.who, List.filter_cons_of_pos,
          decide_true, h1]
        congr 1
        split <;> split <;> simp_all
      · refine .same (by simp [OwnTdCall, hx]) ?_
        simp [tdView, tdLock, Balances.setLock_lock, TdEvent.who, hx, upd, Ne.symm hx]
    | unbond v =>
      obtain ⟨x, b, due, rfl, h1, h2, h3, h4, rfl⟩ := Teerdays.unbond_ok.mp h
      by_cases hx : x = a
      · subst hx
        refine .unbond rfl rfl h3 h1 h2 h4 rfl ?_
        simp only [tdView, tdLock, upd_same, TdEvent.who, List.filter_cons_of_pos, decide_true]
      · refine .same (by simp [OwnTdCall, hx]) ?_
        simp [tdView, tdLock, TdEvent.who, hx, upd, Ne.symm hx]
    | updateOther x =>
      obtain ⟨o, b, rfl, h1, rfl⟩ := Teerdays.updateOther_ok.mp h
      by_cases hx : x = a
      · subst hx
        refine .updated rfl h1 ?_
        simp only [tdView, tdLock, upd_same, TdEvent.who, List.filter_cons_of_pos, decide_true]
      · refine .same (by simp [OwnTdCall]) ?_
        simp [tdView, tdLock, TdEvent.who, hx, upd, Ne.symm hx]
    | withdrawUnbonded =>
      obtain ⟨x, due, amount, rfl, h1, h2, rfl⟩ := Teerdays.withdrawUnbonded_ok.mp h
      by_cases hx : x = a
      · subst hx
        refine .withdraw rfl (by simp only []; split <;> simp) h1 h2 ?_
        simp only [tdView, tdLock, upd_same, TdEvent.who, List.filter_cons_of_pos, decide_true]
        congr 1
        split
        · simp [Balances.removeLock_lock]; omega
        · simp [Balances.setLock_lock]; omega
      · refine .same (by simp [OwnTdCall, hx]) ?_
        simp only [tdView, tdLock, TdEvent.who, upd, Ne.symm hx, if_false]
        simp only [hx, decide_false, Bool.false_eq_true, not_false_eq_true, List.filter_cons_of_neg]
        congr 1
        split
        · simp [Balances.removeLock_lock, Ne.symm hx]
        · simp [Balances.setLock_lock, Ne.symm hx]
    | claims k => cases k <;> simp [Op.parts, Call.parts] at hp
    | _ => simp [Op.parts, Call.parts] at hp
  | _ => simp [Op.parts] at hp

/-- Time only moves with a new block. -/
theorem exec_now {c : Cfg} {s s' : Chain} {op : Op} (h : exec c s op = .ok s') :
    (∃ dt, op = .newBlock dt ∧ s'.now = s.now + dt ∧ s'.block = s.block + 1) ∨
    ((∀ dt, op ≠ .newBlock dt) ∧ s'.now = s.now ∧ s'.block = s.block) := by
  by_cases hp : Part.clock ∈ op.parts
  · cases op with
    | newBlock dt => simp only [exec, Except.ok.injEq] at h; subst h; left; exact ⟨dt, rfl, rfl, rfl⟩
    | ext o k =>
      cases k with
      | claims k => cases k <;> simp [Op.parts, Call.parts] at hp
      | _ => simp [Op.parts, Call.parts] at hp
    | _ => simp [Op.parts] at hp
  · right
    refine ⟨?_, exec_frame h _ hp⟩
    rintro dt rfl
    simp [Op.parts] at hp

theorem exec_now_le {c : Cfg} {s s' : Chain} {op : Op} (h : exec c s op = .ok s') : s.now ≤ s'.now := by
  rcases exec_now h with ⟨_, _, h, _⟩ | ⟨_, h, _⟩ <;> omega

theorem step_now_le (c : Cfg) (s : Chain) (op : Op) : s.now ≤ (step c s op).now := by
  rcases step_cases c s op with h | ⟨h, _⟩
  · exact exec_now_le h
  · rw [h]; exact Nat.le_refl _

theorem run_now_le (c : Cfg) (s : Chain) (ops : List Op) : s.now ≤ (run c s ops).now := by
  induction ops generalizing s with
  | nil => exact Nat.le_refl _
  | cons op ops ih => rw [run_cons]; exact Nat.le_trans (step_now_le c s op) (ih _)

/-- The teerdays lock stays covered by the free balance under everything but slashing. -/
theorem exec_free_covers {c : Cfg} {s s' : Chain} {op : Op} {a : AccountId} (h : exec c s op = .ok s')
    (hs : ¬ IsSlash a op) (hl : tdLock s a ≤ s.bal.free a) : tdLock s a ≤ s'.bal.free a := by
  by_cases hc : Part.currency ∈ op.parts
  rotate_left
  · have := exec_frame h _ hc
    simp only [Part.Same] at this
    rw [this]; exact hl
  have hdep : ∀ {x v}, tdLock s a ≤ (s.bal.depositCreating c.ed c.balMax x v).free a :=
    fun {x v} => Nat.le_trans hl (Balances.depositCreating_free_le ..)
  cases op with
  | newBlock => simp [Op.parts] at hc
  | setAsset => simp [Op.parts] at hc
  | destroyAsset => simp [Op.parts] at hc
  | mint => simp only [exec, Except.ok.injEq] at h; subst h; exact hdep
  | slash x n =>
    simp only [exec, Except.ok.injEq] at h; subst h
    have : a ≠ x := by rintro rfl; exact hs ⟨n, rfl⟩
    simp [upd, this, hl]
  | setOtherLock => simp only [exec, Except.ok.injEq] at h; subst h; exact hl
  | vest => simp only [exec, Except.ok.injEq] at h; subst h; exact hl
  | addVesting =>
    simp only [exec] at h
    split at h
    · rename_i hb
      simp only [Except.ok.injEq] at h; subst h
      simp only [(Balances.addVesting_free hb).1]; exact hl
    · simp at h
  | ext o k =>
    cases k with
    | bond => obtain ⟨_, _, _, _, rfl⟩ := Teerdays.bond_ok.mp h; simpa using hl
    | bondExtra => obtain ⟨_, _, _, _, _, _, rfl⟩ := Teerdays.bondExtra_ok.mp h; simpa using hl
    | withdrawUnbonded =>
      obtain ⟨_, _, _, _, _, _, rfl⟩ := Teerdays.withdrawUnbonded_ok.mp h
      simp only []; split <;> simpa using hl
    | shieldFunds =>
      obtain ⟨_, _, _, h1, rfl⟩ := EnclaveBridge.shieldFunds_ok.mp h
      exact Balances.transfer_respects_lock h1 hl
    | unshieldFunds =>
      obtain ⟨_, _, _, _, ⟨_, _, _, h1, _, rfl⟩ | ⟨_, _, _, _, rfl⟩⟩ := EnclaveBridge.unshieldFunds_ok.mp h
      · exact Balances.transfer_respects_lock h1 hl
      · exact hl
    | balTransfer =>
      obtain ⟨_, _, _, h1, rfl⟩ := balTransfer_ok.mp h
      exact Balances.transfer_respects_lock h1 hl
    | claims k =>
      have key : ∀ {s' : Chain} {g d}, Claims.processClaim c s g d = .ok s' → tdLock s a ≤ s'.bal.free a := by
        intro s' g d h
        obtain ⟨_, _, _, _, hp, rfl⟩ := Claims.processClaim_ok.mp h
        simp only [(paid_cases hp).1]; exact hdep
      cases k with
      | claim => obtain ⟨_, _, _, _, hp⟩ := Claims.claim_ok.mp h; exact key hp
      | claimAttest => obtain ⟨_, _, _, _, hp⟩ := Claims.claimAttest_ok.mp h; exact key hp
      | attest => obtain ⟨_, _, _, _, _, _, hp, rfl⟩ := Claims.attest_ok.mp h; have := key hp; exact this
      | mintClaim => simp [Op.parts, Call.parts] at hc
      | moveClaim => simp [Op.parts, Call.parts] at hc
    | _ => simp [Op.parts, Call.parts] at hc

end Verif
