import Verif.Proofs.TeerdaysInv
import Verif.Spec.Demo

/-!
# Teerdays: leaving, and independence of accounts (C87, C88)
-/

namespace Verif

open Demo

/-! ### C87: nobody can stop an account from leaving -/

/-- Operations other than the account's own calls keep its pending unlock and lock, and the value of its bond. -/
theorem foreign_run {c : Cfg} {a : AccountId} {s : Chain} {ops : List Op} (hops : ∀ op ∈ ops, ¬ OwnTdCall a op) :
    (run c s ops).td.pending a = s.td.pending a ∧ tdLock (run c s ops) a = tdLock s a ∧
    ((run c s ops).td.bonds a).map (·.value) = (s.td.bonds a).map (·.value) := by
  refine run_invariant' (P := fun t => t.td.pending a = s.td.pending a ∧ tdLock t a = tdLock s a ∧
    (t.td.bonds a).map (·.value) = (s.td.bonds a).map (·.value)) (Q := fun op => ¬ OwnTdCall a op) ?_ ?_ ops hops
  · rintro t t' op hno ⟨h1, h2, h3⟩ h
    cases tdEffect h a with
    | same _ hv => obtain ⟨e1, e2, e3⟩ := view_same hv; rw [e1, e2, e3]; exact ⟨h1, h2, h3⟩
    | updated _ hb hv =>
      obtain ⟨e1, e2, e3⟩ := view_bond hv
      rw [e1, e2, e3]
      rw [hb] at h3
      exact ⟨h1, h2, h3⟩
    | bond => exact absurd (.inl ⟨_, rfl⟩) hno
    | extra => exact absurd (.inr (.inl ⟨_, rfl⟩)) hno
    | unbond => exact absurd (.inr (.inr (.inl ⟨_, rfl⟩))) hno
    | withdraw => exact absurd (.inr (.inr (.inr rfl))) hno
  · exact ⟨rfl, rfl, rfl⟩

/-- C87: an account with a bond and without a pending unlock can unbond any amount not below the existential
deposit, whatever anybody else does before. -/
theorem C87_unbond_not_blocked (c : Cfg) (s : Chain) (a : AccountId) (v : Nat) (ops : List Op)
    (hb : s.td.bonds a ≠ none) (hp : s.td.pending a = none) (hv : c.ed ≤ v)
    (hops : ∀ op ∈ ops, ¬ OwnTdCall a op) (hfit : (run c s ops).now + c.unlockPeriod ≤ c.momentMax) :
    ∃ s', exec c (run c s ops) (.ext (.signed a) (.unbond v)) = .ok s' := by
  obtain ⟨h1, _, h3⟩ := foreign_run (c := c) (s := s) hops
  generalize run c s ops = t at *
  cases htb : t.td.bonds a with
  | none => rw [htb] at h3; cases hsb : s.td.bonds a <;> simp_all
  | some b =>
    exact ⟨_, Teerdays.unbond_ok.mpr ⟨a, b, _, rfl, h1.trans hp, hv, htb, plainAdd_eq_ok.mpr (.inl ⟨hfit, rfl⟩),
      rfl⟩⟩

example : (run cfg start [.ext (.signed alice) (.bond 300)]).td.bonds alice ≠ none ∧
    (exec cfg (run cfg (run cfg start [.ext (.signed alice) (.bond 300)]) [.ext (.signed bob) (.updateOther alice),
      .slash alice 7, .newBlock 6]) (.ext (.signed alice) (.unbond 300))).isOk = true := by decide +kernel

/-- C87: a pending unlock can be withdrawn as soon as its time has come, whatever anybody else does before. -/
theorem C87_withdraw_not_blocked (c : Cfg) (s : Chain) (a : AccountId) (due amount : Nat) (ops : List Op)
    (hp : s.td.pending a = some (due, amount)) (hops : ∀ op ∈ ops, ¬ OwnTdCall a op)
    (ht : due ≤ (run c s ops).now) :
    ∃ s', exec c (run c s ops) (.ext (.signed a) .withdrawUnbonded) = .ok s' := by
  obtain ⟨h1, _, _⟩ := foreign_run (c := c) (s := s) hops
  exact ⟨_, Teerdays.withdrawUnbonded_ok.mpr ⟨a, due, amount, rfl, h1.trans hp, ht, rfl⟩⟩

example : (run cfg start [.ext (.signed alice) (.bond 300), .ext (.signed alice) (.unbond 100)]).td.pending alice =
      some (6000, 100) ∧
    6000 ≤ (run cfg (run cfg start [.ext (.signed alice) (.bond 300), .ext (.signed alice) (.unbond 100)])
      [.slash alice 900, .newBlock 1000]).now := by decide +kernel

/-- Unbonding everything. -/
theorem unbond_all {c : Cfg} {s : Chain} {a : AccountId} {v : Nat} {b : Bond} (hed : 0 < c.ed)
    (hb : s.td.bonds a = some b) (hp : s.td.pending a = none) (hv : c.ed ≤ v) (hv' : b.value ≤ v)
    (hfit : s.now + c.unlockPeriod ≤ c.momentMax) :
    ∃ s', exec c s (.ext (.signed a) (.unbond v)) = .ok s' ∧ s'.td.bonds a = none ∧
      s'.td.pending a = some (s.now + c.unlockPeriod, b.value) ∧ tdLock s' a = tdLock s a ∧ s'.now = s.now ∧
      s'.bal = s.bal := by
  refine ⟨_, Teerdays.unbond_ok.mpr ⟨a, b, _, rfl, hp, hv, hb, plainAdd_eq_ok.mpr (.inl ⟨hfit, rfl⟩), rfl⟩, ?_⟩
  have hz : b.value - v = 0 := by omega
  simp [hz, hed, tdLock]

/-- Withdrawing when the time has come. -/
theorem withdraw_all {c : Cfg} {s : Chain} {a : AccountId} {d n : Nat} (hp : s.td.pending a = some (d, n))
    (hd : d ≤ s.now) :
    ∃ s', exec c s (.ext (.signed a) .withdrawUnbonded) = .ok s' ∧ s'.td.bonds a = s.td.bonds a ∧
      s'.td.pending a = none ∧ tdLock s' a = tdLock s a - min n (tdLock s a) ∧ s'.now = s.now ∧
      s'.bal.free = s.bal.free := by
  obtain ⟨s', h⟩ : ∃ s', exec c s (.ext (.signed a) .withdrawUnbonded) = .ok s' :=
    ⟨_, Teerdays.withdrawUnbonded_ok.mpr ⟨a, d, n, rfl, hp, hd, rfl⟩⟩
  refine ⟨s', h, ?_⟩
  cases tdEffect h a with
  | same hno => exact absurd (.inr (.inr (.inr rfl))) hno
  | withdraw hn hf hp' _ hv =>
    rw [hp] at hp'
    simp only [Option.some.injEq, Prod.mk.injEq] at hp'
    obtain ⟨e1, e2, e3⟩ := view_bond hv
    exact ⟨e1, e2, by rw [e3, hp'.2], hn, hf⟩

/-- Bonding. -/
theorem bond_all {c : Cfg} {s : Chain} {a : AccountId} {v : Nat} (hb : s.td.bonds a = none) (hv : c.ed ≤ v) :
    ∃ s', exec c s (.ext (.signed a) (.bond v)) = .ok s' ∧
      s'.td.bonds a = some { value := min v (s.bal.free a), lastUpdated := s.now, tokentime := 0 } ∧
      s'.td.pending a = s.td.pending a ∧
      tdLock s' a = (if min v (s.bal.free a) = 0 then tdLock s a else min v (s.bal.free a)) ∧ s'.now = s.now ∧
      s'.bal.free = s.bal.free := by
  obtain ⟨s', h⟩ : ∃ s', exec c s (.ext (.signed a) (.bond v)) = .ok s' :=
    ⟨_, Teerdays.bond_ok.mpr ⟨a, rfl, hb, hv, rfl⟩⟩
  refine ⟨s', h, ?_⟩
  cases tdEffect h a with
  | same hno => exact absurd (.inl ⟨_, rfl⟩) hno
  | bond hn hf _ _ hvw => obtain ⟨e1, e2, e3⟩ := view_bond hvw; exact ⟨e1, e2, e3, hn, hf⟩

/-- C87: an account that unbonds everything and withdraws after the unlock period is out, whatever anybody else
does before and in between: no bond, no pending unlock, and its lock reduced by the whole bond. -/
theorem C87_exit (c : Cfg) (s : Chain) (a : AccountId) (v : Nat) (ops ops' : List Op) (hed : 0 < c.ed)
    (hb : s.td.bonds a ≠ none) (hp : s.td.pending a = none) (hv : c.ed ≤ v) (hv' : bondValue s a ≤ v)
    (hops : ∀ op ∈ ops, ¬ OwnTdCall a op) (hops' : ∀ op ∈ ops', ¬ OwnTdCall a op)
    (hfit : (run c s ops).now + c.unlockPeriod ≤ c.momentMax)
    (ht : (run c s ops).now + c.unlockPeriod ≤ (run c s (ops ++ .ext (.signed a) (.unbond v) :: ops')).now) :
    let e := run c s (ops ++ .ext (.signed a) (.unbond v) :: ops' ++ [.ext (.signed a) .withdrawUnbonded])
    e.td.bonds a = none ∧ e.td.pending a = none ∧ tdLock e a = tdLock s a - bondValue s a := by
  obtain ⟨h1, h2, h3⟩ := foreign_run (c := c) (s := s) hops
  have hval : ((run c s ops).td.bonds a).map (·.value) = some (bondValue s a) := by
    rw [h3]; unfold bondValue; cases hsb : s.td.bonds a <;> simp_all
  simp only [run_append, run_cons, run_nil] at ht ⊢
  generalize run c s ops = t at *
  cases htb : t.td.bonds a with
  | none => rw [htb] at hval; simp at hval
  | some b =>
    rw [htb] at hval
    simp only [Option.map_some, Option.some.injEq] at hval
    obtain ⟨t', hu, u1, u2, u3, _, _⟩ := unbond_all hed htb (h1.trans hp) hv (by omega) hfit
    rw [step_of_ok hu] at ht ⊢
    obtain ⟨g1, g2, g3⟩ := foreign_run (c := c) (s := t') (ops := ops') (a := a) hops'
    generalize run c t' ops' = w at *
    obtain ⟨e, hw, w1, w2, w3, _, _⟩ := withdraw_all (c := c) (g1.trans u2) ht
    rw [step_of_ok hw]
    refine ⟨?_, w2, ?_⟩
    · rw [w1]; rw [u1] at g3; simpa using g3
    · rw [w3, g2, u3, h2, hval]; omega

/-- Bob interferes with everything he has before and in between. -/
def meddling : List Op :=
  [.ext (.signed bob) (.updateOther alice), .ext (.signed bob) (.bond 400), .ext (.signed bob) (.balTransfer alice 50),
   .slash alice 7, .newBlock 6, .ext (.signed bob) .withdrawUnbonded]

example :
    let s := run cfg start [.ext (.signed alice) (.bond 300)]
    s.td.bonds alice ≠ none ∧ s.td.pending alice = none ∧ bondValue s alice = 300 ∧ tdLock s alice = 300 ∧
    (∀ op ∈ meddling, ¬ OwnTdCall alice op) ∧ (∀ op ∈ meddling ++ [.newBlock 2000], ¬ OwnTdCall alice op) ∧
    (run cfg s meddling).now + cfg.unlockPeriod ≤ (run cfg s
      (meddling ++ .ext (.signed alice) (.unbond 300) :: (meddling ++ [.newBlock 2000]))).now := by decide +kernel

/-- An operation that an account can bring about alone: its own calls, or waiting. -/
def OwnOrWait (a : AccountId) (op : Op) : Prop := OwnTdCall a op ∨ ∃ dt, op = .newBlock dt

/-- First phase: wait for a pending unlock and withdraw it. -/
theorem exit_pending (c : Cfg) (s : Chain) (a : AccountId) (T : Nat) (hT : s.now ≤ T)
    (hd : ∀ d n, s.td.pending a = some (d, n) → d ≤ T) :
    ∃ ops, (∀ op ∈ ops, OwnOrWait a op) ∧ (run c s ops).td.pending a = none ∧ (run c s ops).now ≤ T ∧
      (run c s ops).bal.free = s.bal.free := by
  cases hp : s.td.pending a with
  | none => exact ⟨[], by simp, hp, hT, rfl⟩
  | some p =>
    obtain ⟨d, n⟩ := p
    have hdT := hd d n hp
    obtain ⟨s', hw, _, w2, _, w4, w5⟩ := withdraw_all (c := c) (a := a) (d := d) (n := n)
      (s := step c s (.newBlock (T - s.now))) hp (show d ≤ s.now + (T - s.now) by omega)
    refine ⟨[.newBlock (T - s.now), .ext (.signed a) .withdrawUnbonded], by simp [OwnOrWait, OwnTdCall], ?_⟩
    simp only [run_cons, run_nil, step_of_ok hw]
    refine ⟨w2, ?_, w5⟩
    rw [w4]; show s.now + (T - s.now) ≤ T; omega

/-- Second phase: unbond everything, wait, withdraw. -/
theorem exit_bond (c : Cfg) (s : Chain) (a : AccountId) (hed : 0 < c.ed) (hp : s.td.pending a = none)
    (hfit : s.now + c.unlockPeriod ≤ c.momentMax) :
    ∃ ops, (∀ op ∈ ops, OwnOrWait a op) ∧ (run c s ops).td.pending a = none ∧ (run c s ops).td.bonds a = none ∧
      (run c s ops).now ≤ s.now + c.unlockPeriod ∧ (run c s ops).bal.free = s.bal.free ∧
      ∀ b, s.td.bonds a = some b → tdLock (run c s ops) a = tdLock s a - b.value := by
  cases hb : s.td.bonds a with
  | none => exact ⟨[], by simp, hp, hb, by rw [run_nil]; omega, rfl, by simp⟩
  | some b =>
    obtain ⟨t, hu, u1, u2, u3, u4, u5⟩ := unbond_all (v := b.value + c.ed) hed hb hp (by omega) (by omega) hfit
    obtain ⟨s', hw, w1, w2, w3, w4, w5⟩ := withdraw_all (c := c) (a := a) (s := step c t (.newBlock c.unlockPeriod))
      u2 (show s.now + c.unlockPeriod ≤ t.now + c.unlockPeriod by omega)
    refine ⟨[.ext (.signed a) (.unbond (b.value + c.ed)), .newBlock c.unlockPeriod,
      .ext (.signed a) .withdrawUnbonded], by simp [OwnOrWait, OwnTdCall], ?_⟩
    simp only [run_cons, run_nil, step_of_ok hu, step_of_ok hw]
    refine ⟨w2, w1.trans u1, ?_, ?_, ?_⟩
    · rw [w4]; show t.now + c.unlockPeriod ≤ _; omega
    · rw [w5]; show t.bal.free = _; rw [u5]
    · rintro _ ⟨⟩
      have hl : tdLock (step c t (.newBlock c.unlockPeriod)) a = tdLock s a := u3
      rw [w3, hl]; omega

/-- C87: from every state an account can get out completely by its own calls and waiting, as long as the time fits
the type for two more unlock periods: it reaches a state without bond and pending unlock in which nothing of its
money is locked by teerdays (no lock, or no money). -/
theorem C87_exit_always_possible (c : Cfg) (s : Chain) (a : AccountId) (T : Nat) (hed : 0 < c.ed) (hT : s.now ≤ T)
    (hd : ∀ d n, s.td.pending a = some (d, n) → d ≤ T) (hfit : T + 2 * c.unlockPeriod ≤ c.momentMax) :
    ∃ ops, (∀ op ∈ ops, OwnOrWait a op) ∧ (run c s ops).td.bonds a = none ∧ (run c s ops).td.pending a = none ∧
      (run c s ops).bal.free = s.bal.free ∧ (tdLock (run c s ops) a = 0 ∨ s.bal.free a = 0) := by
  obtain ⟨o1, q1, p1, t1, f1⟩ := exit_pending c s a T hT hd
  obtain ⟨o2, q2, p2, b2, t2, f2, _⟩ := exit_bond c (run c s o1) a hed p1 (by omega)
  rw [← run_append] at p2 b2 t2 f2
  by_cases hz : s.bal.free a = 0
  · refine ⟨o1 ++ o2, ?_, b2, p2, f2.trans f1, .inr hz⟩
    intro op h
    rcases List.mem_append.mp h with h | h
    · exact q1 op h
    · exact q2 op h
  · obtain ⟨t, hb, h1, h2, h3, h4, h5⟩ := bond_all (c := c) (a := a) (v := s.bal.free a + c.ed) b2 (by omega)
    rw [f2, f1] at h1 h3
    rw [show min (s.bal.free a + c.ed) (s.bal.free a) = s.bal.free a by omega] at h1 h3
    rw [if_neg hz] at h3
    obtain ⟨o3, q3, p3, b3, t3, f3, l3⟩ := exit_bond c t a hed (h2.trans p2) (by omega)
    have hrun : run c s (o1 ++ o2 ++ .ext (.signed a) (.bond (s.bal.free a + c.ed)) :: o3) = run c t o3 := by
      rw [run_append, run_cons, step_of_ok hb]
    refine ⟨o1 ++ o2 ++ .ext (.signed a) (.bond (s.bal.free a + c.ed)) :: o3, ?_, ?_⟩
    · intro op h
      simp only [List.mem_append, List.mem_cons] at h
      rcases h with (h | h) | h | h
      · exact q1 op h
      · exact q2 op h
      · exact .inl (.inl ⟨_, h⟩)
      · exact q3 op h
    · rw [hrun]
      refine ⟨b3, p3, f3.trans (h5.trans (f2.trans f1)), .inl ?_⟩
      rw [l3 _ h1, h3]
      exact Nat.sub_self _

/-- Alice has dust locked, a bond and a pending unlock at once: both phases and the extra round are needed. -/
example :
    let s := run cfg start [.ext (.signed alice) (.bond 1000), .ext (.signed alice) (.unbond 995),
      .ext (.signed alice) (.bond 400)]
    0 < cfg.ed ∧ s.td.pending alice = some (6000, 995) ∧ bondValue s alice = 400 ∧ s.now ≤ 6000 ∧
    6000 + 2 * cfg.unlockPeriod ≤ cfg.momentMax := by decide +kernel

/-! ### C88: the bonds of different accounts do not influence each other -/

/-- Part of a history that is about teerdays only: teerdays calls of anybody, and blocks. -/
def TdOnly : Op → Bool
  | .ext _ (.bond _) | .ext _ (.bondExtra _) | .ext _ (.unbond _) | .ext _ (.updateOther _)
  | .ext _ .withdrawUnbonded | .newBlock _ => true
  | _ => false

/-- The operations that concern an account: its own calls, updates of its bond by anybody, and blocks. -/
def Concerns (a : AccountId) : Op → Bool
  | .ext (.signed x) (.bond _) | .ext (.signed x) (.bondExtra _) | .ext (.signed x) (.unbond _)
  | .ext (.signed x) .withdrawUnbonded => decide (x = a)
  | .ext (.signed _) (.updateOther x) => decide (x = a)
  | .newBlock _ => true
  | _ => false

/-- Two states agree on everything teerdays does for one account. -/
def Agree (a : AccountId) (s t : Chain) : Prop :=
  tdView s a = tdView t a ∧ s.now = t.now ∧ s.bal.free a = t.bal.free a

theorem tdOnly_free {c : Cfg} {s s' : Chain} {op : Op} (ho : TdOnly op = true) (h : exec c s op = .ok s') :
    s'.bal.free = s.bal.free := by
  cases op with
  | ext o k =>
    cases k with
    | bond v =>
      obtain ⟨_, _, _, _, rfl⟩ := Teerdays.bond_ok.mp h
      simp only [Balances.setLock]; split <;> rfl
    | bondExtra v =>
      obtain ⟨_, _, _, _, _, _, rfl⟩ := Teerdays.bondExtra_ok.mp h
      simp only [Balances.setLock]; split <;> rfl
    | unbond v => obtain ⟨_, _, _, _, _, _, _, _, rfl⟩ := Teerdays.unbond_ok.mp h; rfl
    | updateOther w => obtain ⟨_, _, _, _, rfl⟩ := Teerdays.updateOther_ok.mp h; rfl
    | withdrawUnbonded =>
      obtain ⟨_, _, _, _, _, _, rfl⟩ := Teerdays.withdrawUnbonded_ok.mp h
      simp only [Balances.setLock, Balances.removeLock]; split
      · rfl
      · split <;> rfl
    | _ => simp [TdOnly] at ho
  | newBlock dt => simp only [exec, Except.ok.injEq] at h; subst h; rfl
  | _ => simp [TdOnly] at ho

theorem tdOnly_now {c : Cfg} {s t s' t' : Chain} {op : Op} (hn : s.now = t.now) (h : exec c s op = .ok s')
    (h' : exec c t op = .ok t') : s'.now = t'.now := by
  rcases exec_now h with ⟨dt, rfl, h1, _⟩ | ⟨h0, h1, _⟩
  · rcases exec_now h' with ⟨dt', he, h2, _⟩ | ⟨h0', _⟩
    · cases he; omega
    · exact absurd rfl (h0' dt)
  · rcases exec_now h' with ⟨dt', he, h2, _⟩ | ⟨_, h2, _⟩
    · exact absurd he (h0 dt')
    · omega

/-- Operations that do not concern the account leave it alone. -/
theorem agree_skip {c : Cfg} {a : AccountId} {s t : Chain} {op : Op} (ho : TdOnly op = true)
    (hc : Concerns a op = false) (h : Agree a s t) : Agree a (step c s op) t := by
  rcases step_cases c s op with hs | ⟨hs, _⟩
  · generalize step c s op = s' at *
    obtain ⟨h1, h2, h3⟩ := h
    have hf := tdOnly_free ho hs
    refine ⟨?_, ?_, by rw [hf]; exact h3⟩
    · cases tdEffect hs a with
      | same _ hv => rw [hv]; exact h1
      | updated => simp [Concerns] at hc
      | bond => simp [Concerns] at hc
      | extra => simp [Concerns] at hc
      | unbond => simp [Concerns] at hc
      | withdraw => simp [Concerns] at hc
    · rcases exec_now hs with ⟨dt, rfl, _⟩ | ⟨_, h4, _⟩
      · simp [Concerns] at hc
      · omega
  · rw [hs]; exact h

theorem agree_symm {a : AccountId} {s t : Chain} (h : Agree a s t) : Agree a t s :=
  ⟨h.1.symm, h.2.1.symm, h.2.2.symm⟩

/-- An operation that concerns the account succeeds in one state if it does in the other, with the same result. -/
theorem agree_ok {c : Cfg} {a : AccountId} {s t s' : Chain} {op : Op} (ho : TdOnly op = true)
    (hc : Concerns a op = true) (h : Agree a s t) (hs : exec c s op = .ok s') :
    ∃ t', exec c t op = .ok t' ∧ Agree a s' t' := by
  obtain ⟨h1, h2, h3⟩ := h
  obtain ⟨v1, v2, v3⟩ := view_bond h1
  simp only [tdView] at v1 v2 v3
  have hev : (tdView s a).events = (tdView t a).events := by rw [h1]
  have key : ∃ t', exec c t op = .ok t' := by
    cases op with
    | ext o k =>
      cases k with
      | bond v =>
        obtain ⟨x, rfl, hb, he, _⟩ := Teerdays.bond_ok.mp hs
        simp only [Concerns, decide_eq_true_eq] at hc; subst hc
        exact ⟨_, Teerdays.bond_ok.mpr ⟨x, rfl, v1 ▸ hb, he, rfl⟩⟩
      | bondExtra v =>
        obtain ⟨x, b, rfl, hp, he, hb, _⟩ := Teerdays.bondExtra_ok.mp hs
        simp only [Concerns, decide_eq_true_eq] at hc; subst hc
        exact ⟨_, Teerdays.bondExtra_ok.mpr ⟨x, b, rfl, v2 ▸ hp, he, v1 ▸ hb, rfl⟩⟩
      | unbond v =>
        obtain ⟨x, b, due, rfl, hp, he, hb, hd, _⟩ := Teerdays.unbond_ok.mp hs
        simp only [Concerns, decide_eq_true_eq] at hc; subst hc
        exact ⟨_, Teerdays.unbond_ok.mpr ⟨x, b, due, rfl, v2 ▸ hp, he, v1 ▸ hb, h2 ▸ hd, rfl⟩⟩
      | updateOther w =>
        obtain ⟨x, b, rfl, hb, _⟩ := Teerdays.updateOther_ok.mp hs
        simp only [Concerns, decide_eq_true_eq] at hc; subst hc
        exact ⟨_, Teerdays.updateOther_ok.mpr ⟨x, b, rfl, v1 ▸ hb, rfl⟩⟩
      | withdrawUnbonded =>
        obtain ⟨x, d, n, rfl, hp, hd, _⟩ := Teerdays.withdrawUnbonded_ok.mp hs
        simp only [Concerns, decide_eq_true_eq] at hc; subst hc
        exact ⟨_, Teerdays.withdrawUnbonded_ok.mpr ⟨x, d, n, rfl, v2 ▸ hp, h2 ▸ hd, rfl⟩⟩
      | _ => simp [TdOnly] at ho
    | newBlock dt => exact ⟨_, rfl⟩
    | _ => simp [TdOnly] at ho
  obtain ⟨t', ht⟩ := key
  refine ⟨t', ht, ?_, tdOnly_now h2 hs ht, by rw [tdOnly_free ho hs, tdOnly_free ho ht]; exact h3⟩
  cases tdEffect hs a with
  | same hno hv =>
    cases tdEffect ht a with
    | same _ hv' => rw [hv, hv', h1]
    | updated _ hb' =>
      exfalso
      obtain ⟨_, b, _, hb, rfl⟩ := Teerdays.updateOther_ok.mp hs
      have he : tdView s a = _ := hv.symm
      have := congrArg (fun v => v.events.length) hv
      simp [tdView, TdEvent.who] at this
    | bond => exact absurd (.inl ⟨_, rfl⟩) hno
    | extra => exact absurd (.inr (.inl ⟨_, rfl⟩)) hno
    | unbond => exact absurd (.inr (.inr (.inl ⟨_, rfl⟩))) hno
    | withdraw => exact absurd (.inr (.inr (.inr rfl))) hno
  | updated _ hb hv =>
    obtain ⟨x, b', he, hb', rfl⟩ := Teerdays.updateOther_ok.mp ht
    rw [v1, hb'] at hb
    cases hb
    rw [hv, hev, h2]
    simp [tdView, TdEvent.who, v2]
    exact v3
  | bond _ _ hb _ hv =>
    cases tdEffect ht a with
    | same hno => exact absurd (.inl ⟨_, rfl⟩) hno
    | bond _ _ _ _ hv' => rw [hv, hv', hev, h2, h3, v2]; simp [v3]
  | extra _ _ hb _ _ hnew hv =>
    cases tdEffect ht a with
    | same hno => exact absurd (.inr (.inl ⟨_, rfl⟩)) hno
    | extra _ _ hb' _ _ hnew' hv' =>
      rw [v1, hb'] at hb; cases hb
      rw [hv, hv', hev, hnew, hnew', h2, h3]; simp [v3]
  | unbond _ _ hb _ _ hd hl hv =>
    cases tdEffect ht a with
    | same hno => exact absurd (.inr (.inr (.inl ⟨_, rfl⟩))) hno
    | unbond _ _ hb' _ _ hd' hl' hv' =>
      rw [v1, hb'] at hb; cases hb
      rw [h2, hd'] at hd; cases hd
      rw [hv, hv', hev, hl, hl', h2]; simp [v3]
  | withdraw _ _ hp _ hv =>
    cases tdEffect ht a with
    | same hno => exact absurd (.inr (.inr (.inr rfl))) hno
    | withdraw _ _ hp' _ hv' =>
      rw [v2, hp'] at hp; cases hp
      rw [hv, hv', hev, v1, v3]

theorem agree_step {c : Cfg} {a : AccountId} {s t : Chain} {op : Op} (ho : TdOnly op = true)
    (hc : Concerns a op = true) (h : Agree a s t) : Agree a (step c s op) (step c t op) := by
  rcases step_cases c s op with hs | ⟨hs, e, he⟩
  · obtain ⟨t', ht, hag⟩ := agree_ok ho hc h hs
    rw [step_of_ok ht]; exact hag
  · rcases step_cases c t op with ht | ⟨ht, _⟩
    · obtain ⟨s', hs', _⟩ := agree_ok ho hc (agree_symm h) ht
      rw [he] at hs'; simp at hs'
    · rw [hs, ht]; exact h

theorem agree_run {c : Cfg} {a : AccountId} (ops : List Op) (ho : ∀ op ∈ ops, TdOnly op = true) {s t : Chain}
    (h : Agree a s t) : Agree a (run c s ops) (run c t (ops.filter (Concerns a))) := by
  induction ops generalizing s t with
  | nil => exact h
  | cons op ops ih =>
    have ho' : ∀ op ∈ ops, TdOnly op = true := fun x hx => ho x (List.mem_cons_of_mem _ hx)
    cases hc : Concerns a op with
    | true =>
      rw [List.filter_cons_of_pos hc, run_cons, run_cons]
      exact ih ho' (agree_step (ho op List.mem_cons_self) hc h)
    | false =>
      rw [List.filter_cons_of_neg (by simp [hc]), run_cons]
      exact ih ho' (agree_skip (ho op List.mem_cons_self) hc h)

/-- C88: in any sequence of teerdays calls and blocks, the bond, pending unlock and lock of an account are what
they would be if only the operations that concern the account had happened. The hypothesis is met by the example with
`schedule1` below. -/
theorem C88_only_own_operations_count (c : Cfg) (s : Chain) (a : AccountId) (ops : List Op)
    (ho : ∀ op ∈ ops, TdOnly op = true) :
    (run c s ops).td.bonds a = (run c s (ops.filter (Concerns a))).td.bonds a ∧
    (run c s ops).td.pending a = (run c s (ops.filter (Concerns a))).td.pending a ∧
    tdLock (run c s ops) a = tdLock (run c s (ops.filter (Concerns a))) a := by
  obtain ⟨h, _⟩ := agree_run (c := c) (a := a) ops ho (s := s) (t := s) ⟨rfl, rfl, rfl⟩
  exact view_bond h

/-- C88: the order in which a block author puts the calls of different accounts does not matter: two sequences
with the same operations per account, each in its own order, lead to the same bonds, pending unlocks and locks. -/
theorem C88_any_schedule (c : Cfg) (s : Chain) (ops ops' : List Op) (ho : ∀ op ∈ ops, TdOnly op = true)
    (ho' : ∀ op ∈ ops', TdOnly op = true) (h : ∀ a, ops.filter (Concerns a) = ops'.filter (Concerns a)) :
    (run c s ops).td.bonds = (run c s ops').td.bonds ∧ (run c s ops).td.pending = (run c s ops').td.pending ∧
    ∀ a, tdLock (run c s ops) a = tdLock (run c s ops') a := by
  have key : ∀ a, _ := fun a => C88_only_own_operations_count c s a ops ho
  have key' : ∀ a, _ := fun a => C88_only_own_operations_count c s a ops' ho'
  refine ⟨funext fun a => ?_, funext fun a => ?_, fun a => ?_⟩
  · rw [(key a).1, (key' a).1, h]
  · rw [(key a).2.1, (key' a).2.1, h]
  · rw [(key a).2.2, (key' a).2.2, h]

/-- Two schedules of the calls of Alice and Bob in two blocks. -/
def schedule1 : List Op :=
  [.ext (.signed alice) (.bond 300), .ext (.signed bob) (.bond 200), .ext (.signed alice) (.bondExtra 50), .newBlock 6,
   .ext (.signed bob) (.unbond 100), .ext (.signed carol) (.updateOther alice), .ext (.signed alice) (.unbond 50)]
def schedule2 : List Op :=
  [.ext (.signed bob) (.bond 200), .ext (.signed alice) (.bond 300), .ext (.signed alice) (.bondExtra 50), .newBlock 6,
   .ext (.signed carol) (.updateOther alice), .ext (.signed alice) (.unbond 50), .ext (.signed bob) (.unbond 100)]

example : schedule1 ≠ schedule2 ∧ (∀ op ∈ schedule1, TdOnly op = true) ∧ (∀ op ∈ schedule2, TdOnly op = true) ∧
    (∀ a, schedule1.filter (Concerns a) = schedule2.filter (Concerns a)) ∧
    (accepted cfg start schedule1).length = 7 ∧ bondValue (run cfg start schedule2) bob = 100 := by
  refine ⟨by decide, by decide, by decide, ?_, by decide +kernel, by decide +kernel⟩
  intro a
  by_cases h1 : alice = a
  · subst h1; decide
  · by_cases h2 : bob = a
    · subst h2; decide
    · simp [schedule1, schedule2, Concerns, h1, h2, List.filter_cons]

end Verif
