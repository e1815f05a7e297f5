import Verif.Proofs.Teerdays

/-!
# Invariants of teerdays over histories
-/

namespace Verif

theorem view_bond {s' : Chain} {a : AccountId} {v : TdView} (h : tdView s' a = v) :
    s'.td.bonds a = v.bond ∧ s'.td.pending a = v.pending ∧ tdLock s' a = v.lock := by
  subst h; exact ⟨rfl, rfl, rfl⟩

theorem view_same {s s' : Chain} {a : AccountId} (h : tdView s' a = tdView s a) :
    s'.td.bonds a = s.td.bonds a ∧ s'.td.pending a = s.td.pending a ∧ tdLock s' a = tdLock s a :=
  view_bond h

/-- Induction over histories in which the account does not bond again while an unlock is pending. -/
theorem run_noRebond {c : Cfg} {a : AccountId} {P : Chain → Prop} {Q : Op → Prop}
    (hexec : ∀ s s' op, Q op → ((∃ v, op = .ext (.signed a) (.bond v)) → s.td.pending a = none) →
      P s → exec c s op = .ok s' → P s')
    {s : Chain} (h0 : P s) (ops : List Op) (hN : NoRebond c a s ops) (hQ : ∀ op ∈ ops, Q op) :
    P (run c s ops) := by
  induction ops generalizing s with
  | nil => exact h0
  | cons op ops ih =>
    rw [run_cons]
    refine ih ?_ hN.2 (fun o ho => hQ o (by simp [ho]))
    rcases step_cases c s op with h | ⟨h, _⟩
    · exact hexec _ _ _ (hQ op (by simp)) hN.1 h0 h
    · rw [h]; exact h0

/-- The lock covers bond and pending unlock. -/
def LockLo (s : Chain) (a : AccountId) : Prop := bondValue s a + pendingAmount s a ≤ tdLock s a

theorem lockLo_exec {c : Cfg} {a : AccountId} {s s' : Chain} {op : Op}
    (hN : (∃ v, op = .ext (.signed a) (.bond v)) → s.td.pending a = none)
    (h0 : LockLo s a) (h : exec c s op = .ok s') : LockLo s' a := by
  unfold LockLo bondValue pendingAmount at *
  cases tdEffect h a with
  | same _ hv => obtain ⟨h1, h2, h3⟩ := view_same hv; rw [h1, h2, h3]; exact h0
  | updated _ hb hv =>
    obtain ⟨h1, h2, h3⟩ := view_bond hv
    rw [h1, h2, h3]
    simp only [hb, Option.elim_some, tdView, Bond.update] at h0 ⊢
    exact h0
  | bond _ _ hb _ hv =>
    obtain ⟨h1, h2, h3⟩ := view_bond hv
    have hp := hN ⟨_, rfl⟩
    rw [h1, h2, h3]
    simp only [hb, hp, Option.elim_some, Option.elim_none] at h0 ⊢
    split <;> omega
  | extra _ _ hb hp _ hnew hv =>
    obtain ⟨h1, h2, h3⟩ := view_bond hv
    rw [h1, h2, h3]
    simp only [hb, hp, Option.elim_some, Option.elim_none] at h0 ⊢
    split <;> omega
  | unbond _ _ hb hp _ _ _ hv =>
    obtain ⟨h1, h2, h3⟩ := view_bond hv
    rw [h1, h2, h3]
    simp only [hb, hp, Option.elim_some, Option.elim_none] at h0 ⊢
    split <;> simp only [Option.elim_some, Option.elim_none] <;> omega
  | withdraw _ _ hp _ hv =>
    obtain ⟨h1, h2, h3⟩ := view_bond hv
    rw [h1, h2, h3]
    simp only [hp, Option.elim_some, Option.elim_none] at h0 ⊢
    omega

/-- The lock exceeds bond and pending unlock by less than the existential deposit, and not at all while
something is bonded. -/
def LockHi (c : Cfg) (s : Chain) (a : AccountId) : Prop :=
  LockLo s a ∧ tdLock s a ≤ bondValue s a + pendingAmount s a + (c.ed - 1) ∧
    (0 < bondValue s a → tdLock s a = bondValue s a + pendingAmount s a)

theorem lockHi_exec {c : Cfg} (hB : 0 < c.balMax) {a : AccountId} {s s' : Chain} {op : Op}
    (hN : (∃ v, op = .ext (.signed a) (.bond v)) → s.td.pending a = none)
    (h0 : LockHi c s a) (h : exec c s op = .ok s') : LockHi c s' a := by
  refine ⟨lockLo_exec hN h0.1 h, ?_⟩
  replace h0 := h0
  unfold LockHi LockLo bondValue pendingAmount at *
  cases tdEffect h a with
  | same _ hv => obtain ⟨h1, h2, h3⟩ := view_same hv; rw [h1, h2, h3]; exact h0.2
  | updated _ hb hv =>
    obtain ⟨h1, h2, h3⟩ := view_bond hv
    rw [h1, h2, h3]
    simp only [hb, Option.elim_some, tdView, Bond.update] at h0 ⊢
    exact h0.2
  | bond _ _ hb _ hv =>
    obtain ⟨h1, h2, h3⟩ := view_bond hv
    have hp := hN ⟨_, rfl⟩
    rw [h1, h2, h3]
    simp only [hb, hp, Option.elim_some, Option.elim_none] at h0 ⊢
    split <;> omega
  | extra _ _ hb hp _ hnew hv =>
    obtain ⟨h1, h2, h3⟩ := view_bond hv
    rw [h1, h2, h3]
    simp only [hb, hp, Option.elim_some, Option.elim_none] at h0 ⊢
    unfold satAdd at hnew
    split <;> omega
  | unbond _ _ hb hp _ _ _ hv =>
    obtain ⟨h1, h2, h3⟩ := view_bond hv
    rw [h1, h2, h3]
    simp only [hb, hp, Option.elim_some, Option.elim_none] at h0 ⊢
    split <;> simp only [Option.elim_some, Option.elim_none] <;> omega
  | withdraw _ _ hp _ hv =>
    obtain ⟨h1, h2, h3⟩ := view_bond hv
    rw [h1, h2, h3]
    simp only [hp, Option.elim_some, Option.elim_none] at h0 ⊢
    omega

/-- The lock is covered by the free balance. -/
theorem covered_exec {c : Cfg} {a : AccountId} {s s' : Chain} {op : Op}
    (hS : ¬ IsSlash a op) (hN : (∃ v, op = .ext (.signed a) (.bond v)) → s.td.pending a = none)
    (h0 : LockLo s a ∧ tdLock s a ≤ s.bal.free a) (h : exec c s op = .ok s') :
    LockLo s' a ∧ tdLock s' a ≤ s'.bal.free a := by
  refine ⟨lockLo_exec hN h0.1 h, ?_⟩
  have hf := exec_free_covers h hS h0.2
  unfold LockLo bondValue pendingAmount at h0
  cases tdEffect h a with
  | same _ hv => obtain ⟨h1, h2, h3⟩ := view_same hv; rw [h3]; exact hf
  | updated _ hb hv => obtain ⟨h1, h2, h3⟩ := view_bond hv; rw [h3]; exact hf
  | bond _ hf' hb _ hv =>
    obtain ⟨h1, h2, h3⟩ := view_bond hv
    rw [h3, hf'] at *
    simp only
    split <;> omega
  | extra _ hf' hb hp _ hnew hv =>
    obtain ⟨h1, h2, h3⟩ := view_bond hv
    rw [h3, hf'] at *
    simp only [hb, hp, Option.elim_some, Option.elim_none] at h0 ⊢
    unfold satAdd at hnew
    split <;> omega
  | unbond _ _ hb hp _ _ _ hv => obtain ⟨h1, h2, h3⟩ := view_bond hv; rw [h3]; exact hf
  | withdraw _ hf' hp _ hv =>
    obtain ⟨h1, h2, h3⟩ := view_bond hv
    rw [h3, hf'] at *
    simp only
    omega

/-! ### Times -/

/-- A bond is never updated in the future. -/
def BondTime (s : Chain) (a : AccountId) : Prop := ∀ b, s.td.bonds a = some b → b.lastUpdated ≤ s.now

theorem bondTime_exec {c : Cfg} {a : AccountId} {s s' : Chain} {op : Op}
    (h0 : BondTime s a) (h : exec c s op = .ok s') : BondTime s' a := by
  have hle := exec_now_le h
  unfold BondTime at *
  intro b' hb'
  cases tdEffect h a with
  | same _ hv =>
    obtain ⟨h1, h2, h3⟩ := view_same hv; rw [h1] at hb'
    exact Nat.le_trans (h0 _ hb') hle
  | updated hn hb hv =>
    obtain ⟨h1, h2, h3⟩ := view_bond hv
    rw [h1] at hb'; simp only [Option.some.injEq] at hb'; subst hb'; simp [Bond.update, hn]
  | bond hn _ hb _ hv =>
    obtain ⟨h1, h2, h3⟩ := view_bond hv
    rw [h1] at hb'; simp only [Option.some.injEq] at hb'; subst hb'; simp [hn]
  | extra hn _ hb hp _ hnew hv =>
    obtain ⟨h1, h2, h3⟩ := view_bond hv
    rw [h1] at hb'; simp only [Option.some.injEq] at hb'; subst hb'; simp [Bond.update, hn]
  | unbond hn _ hb hp _ _ _ hv =>
    obtain ⟨h1, h2, h3⟩ := view_bond hv
    rw [h1] at hb'
    simp only [] at hb'
    split at hb'
    · simp at hb'
    · simp only [Option.some.injEq] at hb'; subst hb'; simp [hn]
  | withdraw hn _ hp _ hv =>
    obtain ⟨h1, h2, h3⟩ := view_bond hv
    rw [h1] at hb'; rw [hn]; exact h0 _ hb'

theorem Bond.update_update (m : Nat) (b : Bond) {t1 t2 : Nat} (h1 : b.lastUpdated ≤ t1) (h2 : t1 ≤ t2) :
    (b.update m t1).update m t2 = b.update m t2 := by
  simp only [Bond.update, satAdd, satMul, Bond.mk.injEq, true_and]
  have : b.value * (t1 - b.lastUpdated) + b.value * (t2 - t1) = b.value * (t2 - b.lastUpdated) := by
    rw [← Nat.mul_add]; congr 1; omega
  omega

/-! ### The time integral -/

theorem tokentimeNow_def (c : Cfg) (s : Chain) (a : AccountId) :
    tokentimeNow c s a = (s.td.bonds a).elim 0 fun b => (b.update c.balMax s.now).tokentime := by
  unfold tokentimeNow
  congr 1
  funext b
  simp only [Bond.update, satAdd, satMul]; omega

/-- Tokentime so far, as a function of the integral so far. -/
theorem bondIntegral_append (c : Cfg) (a : AccountId) (s : Chain) (ops ops' : List Op) :
    bondIntegral c a s (ops ++ ops') = bondIntegral c a s ops + bondIntegral c a (run c s ops) ops' := by
  induction ops generalizing s with
  | nil => simp [bondIntegral, run_nil]
  | cons op ops ih => simp only [List.cons_append, bondIntegral, ih, run_cons, Nat.add_assoc]

theorem bondIntegral_snoc (c : Cfg) (a : AccountId) (s : Chain) (ops : List Op) (op : Op) :
    bondIntegral c a s (ops ++ [op]) = bondIntegral c a s ops + bondTimeSlice a (run c s ops) op := by
  rw [bondIntegral_append]; simp [bondIntegral]

theorem leftTokentime_le (m : Nat) (b : Bond) {new : Nat} (h : new ≤ b.value) :
    Teerdays.leftTokentime m b new ≤ b.tokentime := by
  unfold Teerdays.leftTokentime satMul Teerdays.divOrZero
  refine Nat.le_trans (Nat.min_le_left _ _) ?_
  split
  · simp
  · exact Nat.le_trans (Nat.mul_le_mul_left _ h) (Nat.div_mul_le_self _ _)

theorem tokentime_same {c : Cfg} {a : AccountId} {s s' : Chain} {op : Op} (h0 : BondTime s a)
    (h : exec c s op = .ok s') (hb : s'.td.bonds a = s.td.bonds a) :
    tokentimeNow c s' a = min (tokentimeNow c s a + bondTimeSlice a s op) c.balMax := by
  simp only [tokentimeNow_def]
  rw [hb]
  cases hb : s.td.bonds a with
  | none =>
    cases op <;> simp [bondTimeSlice, bondValue, hb]
  | some b =>
    simp only [Option.elim_some]
    have hbt := h0 b hb
    rcases exec_now h with ⟨dt, rfl, hn, _⟩ | ⟨hne, hn, _⟩
    · simp only [bondTimeSlice, bondValue, hb, Option.elim_some, Bond.update, satAdd, satMul] at *
      have : b.value * (s'.now - b.lastUpdated) = b.value * (s.now - b.lastUpdated) + b.value * dt := by
        rw [← Nat.mul_add]; congr 1; omega
      omega
    · have : bondTimeSlice a s op = 0 := by
        cases op <;> simp [bondTimeSlice]
        exact absurd rfl (hne _)
      rw [hn, this]
      simp only [Bond.update, satAdd]; omega

theorem tokentime_step_le {c : Cfg} {a : AccountId} {s s' : Chain} {op : Op} {i : Nat}
    (h0 : BondTime s a) (hi : tokentimeNow c s a ≤ i) (h : exec c s op = .ok s') :
    tokentimeNow c s' a ≤ i + bondTimeSlice a s op := by
  cases tdEffect h a with
  | same _ hv => rw [tokentime_same h0 h (view_same hv).1]; omega
  | updated hn hb hv =>
    obtain ⟨h1, h2, h3⟩ := view_bond hv
    simp only [tokentimeNow_def] at *
    rw [h1, hn]
    simp only [hb, Option.elim_some] at hi ⊢
    rw [Bond.update_update _ _ (h0 _ hb) (Nat.le_refl _)]; omega
  | bond hn _ hb _ hv =>
    obtain ⟨h1, h2, h3⟩ := view_bond hv
    simp only [tokentimeNow_def] at *
    rw [h1, hn]
    simp [Bond.update, satAdd, satMul]
  | extra hn _ hb hp _ hnew hv =>
    obtain ⟨h1, h2, h3⟩ := view_bond hv
    simp only [tokentimeNow_def] at *
    rw [h1, hn]
    simp only [hb, Option.elim_some, Bond.update, satAdd, satMul, Nat.sub_self, Nat.mul_zero] at hi ⊢
    omega
  | @unbond v _ left b hn _ hb hp _ _ hleft hv =>
    obtain ⟨h1, h2, h3⟩ := view_bond hv
    simp only [tokentimeNow_def] at *
    rw [h1, hn]
    simp only [hb, Option.elim_some] at hi
    split
    · simp
    · have := leftTokentime_le c.balMax (b.update c.balMax s.now) (new := b.value - v) (Nat.sub_le _ _)
      rw [← hleft] at this
      simp only [Option.elim_some, Bond.update, satAdd, satMul, Nat.sub_self, Nat.mul_zero] at *
      omega
  | withdraw hn _ hp _ hv => rw [tokentime_same h0 h (view_bond hv).1]; omega

theorem tokentime_step_eq {c : Cfg} {a : AccountId} {s s' : Chain} {op : Op} {i : Nat}
    (h0 : BondTime s a) (hi : tokentimeNow c s a = min i c.balMax) (hz : s.td.bonds a = none → i = 0)
    (hu : ¬ IsUnbond a op) (h : exec c s op = .ok s') :
    tokentimeNow c s' a = min (i + bondTimeSlice a s op) c.balMax ∧
      (s'.td.bonds a = none → i + bondTimeSlice a s op = 0) := by
  have hz' : s'.td.bonds a = s.td.bonds a → s'.td.bonds a = none → i + bondTimeSlice a s op = 0 := by
    intro h1 h2
    rw [h1] at h2
    rw [hz h2]
    cases op <;> simp [bondTimeSlice, bondValue, h2]
  cases tdEffect h a with
  | same _ hv => rw [tokentime_same h0 h (view_same hv).1]; exact ⟨by omega, hz' (view_same hv).1⟩
  | updated hn hb hv =>
    obtain ⟨h1, h2, h3⟩ := view_bond hv
    refine ⟨?_, by rw [h1]; simp⟩
    simp only [tokentimeNow_def] at *
    rw [h1, hn]
    simp only [hb, Option.elim_some] at hi ⊢
    rw [Bond.update_update _ _ (h0 _ hb) (Nat.le_refl _), hi]; simp [bondTimeSlice]
  | bond hn _ hb _ hv =>
    obtain ⟨h1, h2, h3⟩ := view_bond hv
    refine ⟨?_, by rw [h1]; simp⟩
    simp only [tokentimeNow_def] at *
    rw [h1, hn]
    simp [Bond.update, satAdd, satMul, hz hb, bondTimeSlice]
  | extra hn _ hb hp _ hnew hv =>
    obtain ⟨h1, h2, h3⟩ := view_bond hv
    refine ⟨?_, by rw [h1]; simp⟩
    simp only [tokentimeNow_def] at *
    rw [h1, hn]
    simp only [hb, Option.elim_some, Bond.update, satAdd, satMul, Nat.sub_self, Nat.mul_zero, bondTimeSlice] at hi ⊢
    omega
  | unbond => exact absurd ⟨_, rfl⟩ hu
  | withdraw hn _ hp _ hv =>
    rw [tokentime_same h0 h (view_bond hv).1]; exact ⟨by omega, hz' (view_bond hv).1⟩

/-- Relates tokentime and integral over a whole history. -/
theorem tokentime_run_le {c : Cfg} {a : AccountId} {s : Chain} {i : Nat} (h0 : BondTime s a)
    (hi : tokentimeNow c s a ≤ i) (ops : List Op) :
    tokentimeNow c (run c s ops) a ≤ i + bondIntegral c a s ops := by
  induction ops generalizing s i with
  | nil => simpa [run_nil, bondIntegral] using hi
  | cons op ops ih =>
    rw [run_cons, bondIntegral, ← Nat.add_assoc]
    rcases step_cases c s op with h | ⟨h, _⟩
    · exact ih (bondTime_exec h0 h) (tokentime_step_le h0 hi h)
    · rw [h]; exact ih h0 (by omega)

theorem tokentime_run_eq {c : Cfg} {a : AccountId} {s : Chain} {i : Nat} (h0 : BondTime s a)
    (hi : tokentimeNow c s a = min i c.balMax) (hz : s.td.bonds a = none → i = 0) (ops : List Op)
    (hu : ∀ op ∈ ops, ¬ IsUnbond a op) :
    tokentimeNow c (run c s ops) a = min (i + bondIntegral c a s ops) c.balMax := by
  induction ops generalizing s i with
  | nil => simpa [run_nil, bondIntegral] using hi
  | cons op ops ih =>
    rw [run_cons, bondIntegral, ← Nat.add_assoc]
    rcases step_cases c s op with h | ⟨h, e, he⟩
    · have h1 := tokentime_step_eq h0 hi hz (hu op (by simp)) h
      exact ih (bondTime_exec h0 h) h1.1 h1.2 (fun o ho => hu o (by simp [ho]))
    · rw [h]
      have : bondTimeSlice a s op = 0 := by
        cases op <;> simp [bondTimeSlice]
        simp [exec] at he
      rw [this]
      exact ih h0 hi hz (fun o ho => hu o (by simp [ho]))

/-- If the free balance never exceeds `B`, neither does the bond. -/
theorem bondValue_exec {c : Cfg} {a : AccountId} {s s' : Chain} {op : Op} {B : Nat}
    (h0 : bondValue s a ≤ B) (hf : s.bal.free a ≤ B) (h : exec c s op = .ok s') : bondValue s' a ≤ B := by
  unfold bondValue at *
  cases tdEffect h a with
  | same _ hv => rw [(view_same hv).1]; exact h0
  | updated hn hb hv =>
    rw [(view_bond hv).1]
    simpa only [hb, Option.elim_some, Bond.update] using h0
  | bond hn _ hb _ hv => rw [(view_bond hv).1]; simp only [Option.elim_some]; omega
  | extra hn _ hb hp _ hnew hv =>
    rw [(view_bond hv).1]
    simp only [hb, Option.elim_some] at h0 ⊢
    unfold satAdd at hnew; omega
  | unbond _ _ hb _ _ _ _ hv =>
    rw [(view_bond hv).1]
    simp only [hb, Option.elim_some] at h0 ⊢
    split <;> simp; omega
  | withdraw hn _ hp _ hv => rw [(view_bond hv).1]; exact h0

end Verif

namespace Verif

/-! ### Pending unlocks and events -/

theorem pending_exec {c : Cfg} {a : AccountId} {s s' : Chain} {op : Op} {p : Nat × Nat}
    (hp : s.td.pending a = some p) (h : exec c s op = .ok s') :
    (s'.td.pending a = some p ∧ op ≠ .ext (.signed a) .withdrawUnbonded ∧
        (tdLock s' a = tdLock s a ∨ ∃ v, op = .ext (.signed a) (.bond v))) ∨
      (op = .ext (.signed a) .withdrawUnbonded ∧ p.1 ≤ s.now ∧ s'.td.pending a = none) := by
  cases tdEffect h a with
  | same hno hv =>
    left; refine ⟨by rw [(view_same hv).2.1, hp], ?_, .inl (view_same hv).2.2⟩
    rintro rfl; exact hno (by simp [OwnTdCall])
  | updated _ _ hv => left; exact ⟨by rw [(view_bond hv).2.1]; exact hp, by simp, .inl (view_bond hv).2.2⟩
  | bond _ _ _ _ hv => left; exact ⟨by rw [(view_bond hv).2.1]; exact hp, by simp, .inr ⟨_, rfl⟩⟩
  | extra _ _ _ hp' => rw [hp] at hp'; simp at hp'
  | unbond _ _ _ hp' => rw [hp] at hp'; simp at hp'
  | withdraw _ _ hp' hd hv =>
    rw [hp, Option.some.injEq] at hp'; subst hp'
    right; exact ⟨rfl, hd, (view_bond hv).2.1⟩

theorem locked_until_due {c : Cfg} {a : AccountId} {p : Nat × Nat} {L : Nat} {s : Chain}
    (hp : s.td.pending a = some p) (hL : tdLock s a = L) (ops : List Op) (hN : NoRebond c a s ops)
    (ht : (run c s ops).now < p.1) : (run c s ops).td.pending a = some p ∧ tdLock (run c s ops) a = L := by
  induction ops generalizing s with
  | nil => exact ⟨hp, hL⟩
  | cons op ops ih =>
    rw [run_cons] at ht ⊢
    refine ih ?_ ?_ hN.2 ht
    all_goals
      have hlt : s.now < p.1 :=
        Nat.lt_of_le_of_lt (Nat.le_trans (step_now_le c s op) (run_now_le c _ ops)) ht
      rcases step_cases c s op with h | ⟨h, _⟩
      · rcases pending_exec hp h with ⟨h1, _, h2⟩ | ⟨_, h1, _⟩
        · first
          | exact h1
          | rcases h2 with h2 | h2
            · rw [h2, hL]
            · rw [hN.1 h2] at hp; simp at hp
        · omega
      · rw [h]; assumption

theorem unbondedAmounts_filter (a : AccountId) (l : List TdEvent) :
    unbondedAmounts a (l.filter fun e => decide (e.who = a)) = unbondedAmounts a l := by
  unfold unbondedAmounts
  induction l with
  | nil => rfl
  | cons e l ih =>
    by_cases he : e.who = a
    · rw [List.filter_cons_of_pos (by simp [he])]
      simp only [List.filterMap_cons, ih]
    · rw [List.filter_cons_of_neg (by simp [he]), ih]
      cases e <;> simp_all [TdEvent.who]

theorem withdrawnAmounts_filter (a : AccountId) (l : List TdEvent) :
    withdrawnAmounts a (l.filter fun e => decide (e.who = a)) = withdrawnAmounts a l := by
  unfold withdrawnAmounts
  induction l with
  | nil => rfl
  | cons e l ih =>
    by_cases he : e.who = a
    · rw [List.filter_cons_of_pos (by simp [he])]
      simp only [List.filterMap_cons, ih]
    · rw [List.filter_cons_of_neg (by simp [he]), ih]
      cases e <;> simp_all [TdEvent.who]

/-- Withdrawals match earlier unbondings; the newest unbonding may still be pending. -/
def Matched (s : Chain) (a : AccountId) : Prop :=
  ∃ u, unbondedAmounts a s.td.events = (s.td.pending a).toList.map (·.2) ++ u ∧
    (withdrawnAmounts a s.td.events).length = u.length ∧
    ∀ p ∈ (withdrawnAmounts a s.td.events).zip u, p.1 ≤ p.2

theorem view_events {s' : Chain} {a : AccountId} {v : TdView} (h : tdView s' a = v) :
    unbondedAmounts a s'.td.events = unbondedAmounts a v.events ∧
    withdrawnAmounts a s'.td.events = withdrawnAmounts a v.events := by
  subst h
  exact ⟨(unbondedAmounts_filter a _).symm, (withdrawnAmounts_filter a _).symm⟩

theorem matched_exec {c : Cfg} {a : AccountId} {s s' : Chain} {op : Op}
    (h0 : Matched s a) (h : exec c s op = .ok s') : Matched s' a := by
  unfold Matched at *
  obtain ⟨u, hu, hl, hz⟩ := h0
  obtain ⟨he1, he2⟩ := view_events (rfl : tdView s a = tdView s a)
  cases tdEffect h a with
  | same _ hv =>
    refine ⟨u, ?_⟩
    rw [(view_events hv).1, (view_events hv).2, (view_bond hv).2.1, ← he1, ← he2]; exact ⟨hu, hl, hz⟩
  | updated _ _ hv =>
    refine ⟨u, ?_⟩
    rw [(view_events hv).1, (view_events hv).2, (view_bond hv).2.1]
    exact ⟨he1 ▸ hu, he2 ▸ hl, he2 ▸ hz⟩
  | bond _ _ _ _ hv =>
    refine ⟨u, ?_⟩
    rw [(view_events hv).1, (view_events hv).2, (view_bond hv).2.1]
    exact ⟨he1 ▸ hu, he2 ▸ hl, he2 ▸ hz⟩
  | extra _ _ _ hp _ _ hv =>
    refine ⟨u, ?_⟩
    rw [hp] at hu
    rw [(view_events hv).1, (view_events hv).2, (view_bond hv).2.1]
    exact ⟨he1 ▸ hu, he2 ▸ hl, he2 ▸ hz⟩
  | unbond _ _ _ hp _ _ _ hv =>
    refine ⟨u, ?_⟩
    rw [hp] at hu
    rw [(view_events hv).1, (view_events hv).2, (view_bond hv).2.1]
    refine ⟨?_, he2 ▸ hl, he2 ▸ hz⟩
    simp only [Option.toList_none, List.map_nil, List.nil_append] at hu
    simp only [unbondedAmounts, List.filterMap_cons, if_true, Option.toList_some, List.map_cons, List.map_nil,
      List.cons_append, List.nil_append]
    rw [he1] at hu; unfold unbondedAmounts at hu; rw [hu]
  | @withdraw due amount _ _ hp _ hv =>
    rw [hp] at hu
    rw [(view_events hv).1, (view_events hv).2, (view_bond hv).2.1]
    rw [he1] at hu; rw [he2] at hl hz
    refine ⟨amount :: u, ?_, ?_, ?_⟩
    · simpa [unbondedAmounts] using hu
    · simpa [withdrawnAmounts] using hl
    · intro p hp
      simp only [withdrawnAmounts, List.filterMap_cons, if_true, List.zip_cons_cons, List.mem_cons] at hp
      rcases hp with rfl | hp
      · exact Nat.min_le_left _ _
      · exact hz p hp

theorem sum_le_of_zip {w u : List Nat} (hl : w.length = u.length) (h : ∀ p ∈ w.zip u, p.1 ≤ p.2) :
    w.sum ≤ u.sum := by
  induction w generalizing u with
  | nil => simp
  | cons x w ih =>
    cases u with
    | nil => simp at hl
    | cons y u =>
      simp only [List.zip_cons_cons, List.mem_cons, forall_eq_or_imp] at h
      simp only [List.length_cons, Nat.add_right_cancel_iff] at hl
      have := ih hl h.2
      simp only [List.sum_cons]
      have := h.1
      omega

/-- With a disciplined account the withdrawals are exactly the unbondings. -/
def MatchedExactly (s : Chain) (a : AccountId) : Prop :=
  unbondedAmounts a s.td.events = (s.td.pending a).toList.map (·.2) ++ withdrawnAmounts a s.td.events

theorem matchedExactly_exec {c : Cfg} {a : AccountId} {s s' : Chain} {op : Op} (hL : LockLo s a)
    (h0 : MatchedExactly s a) (h : exec c s op = .ok s') : MatchedExactly s' a := by
  unfold MatchedExactly at *
  obtain ⟨he1, he2⟩ := view_events (rfl : tdView s a = tdView s a)
  rw [he1, he2] at h0
  cases tdEffect h a with
  | same _ hv => rw [(view_events hv).1, (view_events hv).2, (view_bond hv).2.1]; exact h0
  | updated _ _ hv => rw [(view_events hv).1, (view_events hv).2, (view_bond hv).2.1]; exact h0
  | bond _ _ _ _ hv => rw [(view_events hv).1, (view_events hv).2, (view_bond hv).2.1]; exact h0
  | extra _ _ _ hp _ _ hv =>
    rw [hp] at h0
    rw [(view_events hv).1, (view_events hv).2, (view_bond hv).2.1]; exact h0
  | unbond _ _ _ hp _ _ _ hv =>
    rw [hp] at h0
    rw [(view_events hv).1, (view_events hv).2, (view_bond hv).2.1]
    simp only [Option.toList_none, List.map_nil, List.nil_append] at h0
    simpa [unbondedAmounts, withdrawnAmounts] using h0
  | @withdraw due amount _ _ hp _ hv =>
    unfold LockLo pendingAmount at hL
    rw [hp] at h0 hL
    simp only [Option.elim_some] at hL
    rw [(view_events hv).1, (view_events hv).2, (view_bond hv).2.1]
    have : min amount (tdLock s a) = amount := by omega
    simpa [unbondedAmounts, withdrawnAmounts, this] using h0

end Verif
