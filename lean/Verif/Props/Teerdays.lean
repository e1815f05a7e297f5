import Verif.Proofs.TeerdaysInv
import Verif.Spec.Demo

/-!
# Teerdays: properties C01 to C11
-/

namespace Verif

open Demo

/-! ### C01 Bonded and unbonding tokens stay locked -/

/-- The full claim. It is false for the code (see `C01_refuted`). -/
def C01_Full : Prop :=
  ∀ (c : Cfg) (s0 : Chain) (a : AccountId) (ops : List Op), TdFresh s0 a →
    bondValue (run c s0 ops) a + pendingAmount (run c s0 ops) a ≤ tdLock (run c s0 ops) a

/-- Alice bonds everything, unbonds everything, bonds everything again while the unlock is pending, and
withdraws after the unlock period. -/
def rebondHistory : List Op :=
  [.ext (.signed alice) (.bond 1000), .newBlock 6, .ext (.signed alice) (.unbond 1000),
   .ext (.signed alice) (.bond 1000), .newBlock 1000, .ext (.signed alice) .withdrawUnbonded]

/-- After that history Alice has a bond of 1000 but no lock, and can send nearly everything away. -/
theorem C01_refuted : ¬ C01_Full := by
  intro h
  have := h cfg start alice rebondHistory (by decide)
  revert this
  decide

example : bondValue (run cfg start rebondHistory) alice = 1000 ∧
    tdLock (run cfg start rebondHistory) alice = 0 ∧
    ((run cfg start (rebondHistory ++ [.ext (.signed alice) (.balTransfer bob 1000)])).bal.free alice = 0) := by
  decide

/-- C01, partial: the claim holds for every account that does not call `bond` while an unlock is pending.
Missing: histories with such a call, for which the claim is false. -/
theorem C01_lock_covers_bond_and_pending_partial (c : Cfg) (s0 : Chain) (a : AccountId) (ops : List Op)
    (h0 : TdFresh s0 a) (hN : NoRebond c a s0 ops) :
    bondValue (run c s0 ops) a + pendingAmount (run c s0 ops) a ≤ tdLock (run c s0 ops) a := by
  refine run_noRebond (P := fun s => LockLo s a) (Q := fun _ => True) ?_ ?_ ops hN (by simp)
  · intro s s' op _ hN h0 h; exact lockLo_exec hN h0 h
  · simp [LockLo, bondValue, pendingAmount, h0.1, h0.2.1]

/-- A disciplined history with bond, extra bond, partial unbond, update by somebody else and a withdrawal. -/
def goodHistory : List Op :=
  [.ext (.signed alice) (.bond 400), .newBlock 6, .ext (.signed alice) (.bondExtra 100), .newBlock 6,
   .ext (.signed bob) (.updateOther alice), .ext (.signed alice) (.unbond 200), .newBlock 1000,
   .ext (.signed alice) .withdrawUnbonded, .ext (.signed alice) (.unbond 50)]

example : TdFresh start alice ∧ NoRebond cfg alice start goodHistory ∧
    bondValue (run cfg start goodHistory) alice = 250 ∧ pendingAmount (run cfg start goodHistory) alice = 50 ∧
    tdLock (run cfg start goodHistory) alice = 300 := by
  decide

/-! ### C02 Unbonding respects the unlock period -/

/-- The full claim. It is false for the code (see `C02_refuted`). The first hypothesis says that the deadline is
a representable time. -/
def C02_Full : Prop :=
  ∀ (c : Cfg) (s s' : Chain) (a : AccountId) (v : Nat) (ops : List Op),
    s.now + c.unlockPeriod ≤ c.momentMax → exec c s (.ext (.signed a) (.unbond v)) = .ok s' →
    (run c s' ops).now < s.now + c.unlockPeriod → tdLock s a ≤ tdLock (run c s' ops) a

/-- Alice has bonded 1000 and been updated. -/
def bonded : Chain := run cfg start [.ext (.signed alice) (.bond 1000), .newBlock 6]

/-- Alice's state after unbonding 1000. -/
def unbonded : Chain := step cfg bonded (.ext (.signed alice) (.unbond 1000))

/-- Alice bonds a new minimal bond right after unbonding everything: the lock shrinks to 10 at once. -/
theorem C02_refuted : ¬ C02_Full := by
  intro h
  have := h cfg bonded unbonded alice 1000 [.ext (.signed alice) (.bond 10)] (by decide)
    (by unfold unbonded step; rfl) (by decide)
  revert this
  decide

/-- C02, partial: if the account does not call `bond` before the deadline, its lock stays exactly what it was
when it unbonded, and the pending unlock stays. Missing: histories with such a call (claim false). -/
theorem C02_locked_until_deadline_partial (c : Cfg) (s s' : Chain) (a : AccountId) (v : Nat) (ops : List Op)
    (hfit : s.now + c.unlockPeriod ≤ c.momentMax) (h : exec c s (.ext (.signed a) (.unbond v)) = .ok s')
    (hN : NoRebond c a s' ops) (ht : (run c s' ops).now < s.now + c.unlockPeriod) :
    tdLock (run c s' ops) a = tdLock s a ∧
    (run c s' ops).td.pending a = some (s.now + c.unlockPeriod, min v (bondValue s a)) := by
  cases tdEffect h a with
  | same hno => exact absurd (.inr (.inr (.inl ⟨_, rfl⟩))) hno
  | @unbond _ due _ b _ _ hb hp _ hd _ hv =>
    have hdue : due = s.now + c.unlockPeriod := by
      rcases plainAdd_eq_ok.mp hd with ⟨_, h⟩ | ⟨_, _⟩ <;> omega
    obtain ⟨h1, h2, h3⟩ := view_bond hv
    have := locked_until_due h2 h3 ops hN (by rw [hdue]; exact ht)
    refine ⟨this.2, ?_⟩
    rw [this.1, hdue]
    simp only [bondValue, hb, Option.elim_some, Option.some.injEq, Prod.mk.injEq, true_and]
    omega

example : (∃ s', exec cfg bonded (.ext (.signed alice) (.unbond 700)) = .ok s' ∧
    bonded.now + cfg.unlockPeriod ≤ cfg.momentMax ∧
    NoRebond cfg alice s' [.newBlock 500, .ext (.signed alice) .withdrawUnbonded, .newBlock 400] ∧
    (run cfg s' [.newBlock 500, .ext (.signed alice) .withdrawUnbonded, .newBlock 400]).now < 6006) :=
  ⟨step cfg bonded (.ext (.signed alice) (.unbond 700)), by unfold step; rfl, by decide⟩

/-! ### C03 Lazy updates are path independent -/

/-- C03: an update in between does not matter, at any times, also when the bound is hit. -/
theorem C03_update_update (balMax : Nat) (b : Bond) (t1 t2 : Nat) (h1 : b.lastUpdated ≤ t1) (h2 : t1 ≤ t2) :
    (b.update balMax t1).update balMax t2 = b.update balMax t2 :=
  Bond.update_update balMax b h1 h2

example : (⟨7, 10, 3⟩ : Bond).lastUpdated ≤ 20 ∧
    ((⟨7, 10, 3⟩ : Bond).update 1000 20).update 1000 30 = ⟨7, 30, 143⟩ := by decide

/-- C03: updating any number of times at non-decreasing times is the same as one update at the last time. -/
theorem C03_many_updates (balMax : Nat) (b : Bond) (ts : List Nat) (t : Nat)
    (hs : (b.lastUpdated :: ts ++ [t]).Pairwise (· ≤ ·)) :
    (ts.foldl (Bond.update balMax) b).update balMax t = b.update balMax t := by
  induction ts generalizing b with
  | nil => rfl
  | cons t1 ts ih =>
    simp only [List.cons_append, List.pairwise_cons, List.mem_cons, List.mem_append, List.not_mem_nil,
      or_false] at hs
    rw [List.foldl_cons, ih]
    · exact Bond.update_update balMax b (hs.1 _ (.inl rfl)) (hs.2.1 _ (.inr rfl))
    · simp only [List.cons_append, List.pairwise_cons, Bond.update, List.mem_append, List.mem_cons,
        List.not_mem_nil, or_false]
      exact hs.2

example : (10 :: [12, 12, 50] ++ [60]).Pairwise (· ≤ ·) ∧
    ([12, 12, 50].foldl (Bond.update 120) ⟨2, 10, 5⟩).update 120 60 = ⟨2, 60, 105⟩ := by decide

/-- C03 over histories: from any reachable state, whatever happens that is not a bond-managing call of the
account itself (in particular any number of `update_other` by anybody), the bond value stays, and an update now
gives what one single update from the earlier bond would give. -/
theorem C03_history (c : Cfg) (s0 : Chain) (a : AccountId) (ops0 ops : List Op) (b : Bond)
    (h0 : TdFresh s0 a) (hb : (run c s0 ops0).td.bonds a = some b)
    (hops : ∀ op ∈ ops, ¬ OwnTdCall a op) :
    ∃ b', (run c s0 (ops0 ++ ops)).td.bonds a = some b' ∧ b'.value = b.value ∧
      b'.update c.balMax (run c s0 (ops0 ++ ops)).now = b.update c.balMax (run c s0 (ops0 ++ ops)).now := by
  have hT : BondTime (run c s0 ops0) a :=
    run_invariant (P := fun s => BondTime s a) (fun _ _ _ h h' => bondTime_exec h h')
      (by intro b hb; rw [h0.1] at hb; simp at hb) ops0
  rw [run_append]
  generalize run c s0 ops0 = s at *
  clear h0
  induction ops generalizing s b with
  | nil => exact ⟨b, hb, rfl, rfl⟩
  | cons op ops ih =>
    rw [run_cons]
    have hno := hops op (by simp)
    have hops' : ∀ op ∈ ops, ¬ OwnTdCall a op := fun o ho => hops o (by simp [ho])
    rcases step_cases c s op with h | ⟨h, _⟩
    · have hT' := bondTime_exec hT h
      have hle := run_now_le c (step c s op) ops
      have key : (step c s op).td.bonds a = some b ∨
          ((step c s op).td.bonds a = some (b.update c.balMax s.now) ∧ (step c s op).now = s.now) := by
        generalize step c s op = s1 at *
        cases tdEffect h a with
        | same _ hv => left; rw [(view_same hv).1, hb]
        | updated hn hb' hv =>
          right
          rw [hb, Option.some.injEq] at hb'; subst hb'
          exact ⟨(view_bond hv).1, hn⟩
        | bond => exact absurd (.inl ⟨_, rfl⟩) hno
        | extra => exact absurd (.inr (.inl ⟨_, rfl⟩)) hno
        | unbond => exact absurd (.inr (.inr (.inl ⟨_, rfl⟩))) hno
        | withdraw => exact absurd (.inr (.inr (.inr rfl))) hno
      rcases key with h1 | ⟨h1, hn⟩
      · exact ih b hops' _ h1 hT'
      · obtain ⟨b', hb', hv', hu'⟩ := ih _ hops' _ h1 hT'
        refine ⟨b', hb', hv', ?_⟩
        rw [hu', Bond.update_update _ _ (hT b hb) (by omega)]
    · rw [h]; exact ih b hops' s hb hT

example : TdFresh start alice ∧ (run cfg start [.ext (.signed alice) (.bond 400)]).td.bonds alice = some ⟨400, 5000, 0⟩ ∧
    (∀ op ∈ [Op.newBlock 3, .ext (.signed bob) (.updateOther alice), .newBlock 4], ¬ OwnTdCall alice op) := by
  decide

/-! ### C04 Tokentime is the time integral of the bond -/

/-- C04: as long as the account does not unbond, its tokentime is the time integral of its bond, capped at the
maximum of the balance type. -/
theorem C04_tokentime_is_integral (c : Cfg) (s0 : Chain) (a : AccountId) (ops : List Op)
    (h0 : s0.td.bonds a = none) (hu : ∀ op ∈ ops, ¬ IsUnbond a op) :
    tokentimeNow c (run c s0 ops) a = min (bondIntegral c a s0 ops) c.balMax := by
  have := tokentime_run_eq (c := c) (a := a) (s := s0) (i := 0)
    (by intro b hb; rw [h0] at hb; simp at hb) (by simp [tokentimeNow, h0]) (fun _ => rfl) ops hu
  simpa using this

example : start.td.bonds alice = none ∧
    (∀ op ∈ [Op.ext (.signed alice) (.bond 400), .newBlock 6, .ext (.signed alice) (.bondExtra 100), .newBlock 2],
      ¬ IsUnbond alice op) ∧
    bondIntegral cfg alice start
      [Op.ext (.signed alice) (.bond 400), .newBlock 6, .ext (.signed alice) (.bondExtra 100), .newBlock 2] = 3400 := by
  decide

/-- C04: over every history, tokentime never exceeds the time integral. -/
theorem C04_tokentime_le_integral (c : Cfg) (s0 : Chain) (a : AccountId) (ops : List Op)
    (h0 : s0.td.bonds a = none) : tokentimeNow c (run c s0 ops) a ≤ bondIntegral c a s0 ops := by
  have := tokentime_run_le (c := c) (a := a) (s := s0) (i := 0)
    (by intro b hb; rw [h0] at hb; simp at hb) (by simp [tokentimeNow, h0]) ops
  simpa using this

example : start.td.bonds alice = none ∧ bondIntegral cfg alice start goodHistory = 305400 ∧
    tokentimeNow cfg (run cfg start goodHistory) alice < 305400 := by decide

/-- C04: `update_other`, called by anybody, stores exactly this tokentime and the current time. -/
theorem C04_update_stores (c : Cfg) (s s' : Chain) (o : Origin) (a : AccountId)
    (h : exec c s (.ext o (.updateOther a)) = .ok s') :
    ∃ b, s.td.bonds a = some b ∧
      s'.td.bonds a = some { value := b.value, lastUpdated := s.now, tokentime := tokentimeNow c s a } := by
  obtain ⟨_, b, _, hb, rfl⟩ := Teerdays.updateOther_ok.mp h
  refine ⟨b, hb, ?_⟩
  simp [tokentimeNow_def, hb]
  rfl

example : ∃ s', exec cfg bonded (.ext (.signed bob) (.updateOther alice)) = .ok s' :=
  ⟨step cfg bonded (.ext (.signed bob) (.updateOther alice)), by unfold step; rfl⟩

/-! ### C05 Tokentime arithmetic does not saturate for 100 years -/

/-- C05: with a u128 balance type, if the account never has more than 10^7 TEER (12 decimals) bonded and no more than
100 years (in milliseconds) pass, accumulation is exact: an update adds exactly value × time and stays below the
bound. The hypotheses are met by the last example for C05 below. -/
theorem C05_no_saturation (c : Cfg) (s0 : Chain) (a : AccountId) (ops : List Op) (b : Bond)
    (hmax : c.balMax = 2 ^ 128 - 1) (h0 : s0.td.bonds a = none)
    (hbond : ∀ pre, pre <+: ops → bondValue (run c s0 pre) a ≤ 10 ^ 7 * 10 ^ 12)
    (htime : (run c s0 ops).now - s0.now ≤ 100 * 366 * 24 * 3600 * 1000)
    (hb : (run c s0 ops).td.bonds a = some b) :
    (b.update c.balMax (run c s0 ops).now).tokentime =
      b.tokentime + b.value * ((run c s0 ops).now - b.lastUpdated) ∧
    b.tokentime + b.value * ((run c s0 ops).now - b.lastUpdated) < c.balMax := by
  have key : ∀ ops : List Op, (∀ pre, pre <+: ops → bondValue (run c s0 pre) a ≤ 10 ^ 7 * 10 ^ 12) →
      (bondValue (run c s0 ops) a ≤ 10 ^ 7 * 10 ^ 12 ∧
       ∀ b, (run c s0 ops).td.bonds a = some b → b.lastUpdated ≤ (run c s0 ops).now ∧
        b.tokentime + b.value * ((run c s0 ops).now - b.lastUpdated) ≤
          10 ^ 7 * 10 ^ 12 * ((run c s0 ops).now - s0.now)) := by
    intro ops
    have hrev : ∀ l : List Op, (∀ pre, pre <+: l.reverse → bondValue (run c s0 pre) a ≤ 10 ^ 7 * 10 ^ 12) →
      (bondValue (run c s0 l.reverse) a ≤ 10 ^ 7 * 10 ^ 12 ∧
       ∀ b, (run c s0 l.reverse).td.bonds a = some b → b.lastUpdated ≤ (run c s0 l.reverse).now ∧
        b.tokentime + b.value * ((run c s0 l.reverse).now - b.lastUpdated) ≤
          10 ^ 7 * 10 ^ 12 * ((run c s0 l.reverse).now - s0.now)) := by
      intro l
      induction l with
      | nil => intro _; simp [run_nil, bondValue, h0]
      | cons op l ih =>
        intro hf
        rw [List.reverse_cons] at hf ⊢
        have hf' : ∀ pre, pre <+: l.reverse → bondValue (run c s0 pre) a ≤ 10 ^ 7 * 10 ^ 12 :=
          fun pre hp => hf pre (hp.trans (List.prefix_append _ _))
        obtain ⟨hV, hT⟩ := ih hf'
        rw [run_snoc]
        have hnow := run_now_le c s0 l.reverse
        have hV' : bondValue (step c (run c s0 l.reverse) op) a ≤ 10 ^ 7 * 10 ^ 12 := by
          rw [← run_snoc]; exact hf _ (List.prefix_refl _)
        generalize run c s0 l.reverse = s at *
        rcases step_cases c s op with h | ⟨h, _⟩
        rotate_left
        · rw [h]; exact ⟨hV, hT⟩
        generalize step c s op = s' at *
        refine ⟨hV', ?_⟩
        intro b' hb'
        have hle := exec_now_le h
        have hmono : 10 ^ 7 * 10 ^ 12 * (s.now - s0.now) ≤ 10 ^ 7 * 10 ^ 12 * (s'.now - s0.now) :=
          Nat.mul_le_mul_left _ (by omega)
        have hsame : s'.td.bonds a = s.td.bonds a → b'.lastUpdated ≤ s'.now ∧
            b'.tokentime + b'.value * (s'.now - b'.lastUpdated) ≤ 10 ^ 7 * 10 ^ 12 * (s'.now - s0.now) := by
          intro hs
          rw [hs] at hb'
          obtain ⟨h1, h2⟩ := hT b' hb'
          refine ⟨by omega, ?_⟩
          have e1 : b'.value * (s'.now - b'.lastUpdated) =
              b'.value * (s.now - b'.lastUpdated) + b'.value * (s'.now - s.now) := by
            rw [← Nat.mul_add]; congr 1; omega
          have e2 : 10 ^ 7 * 10 ^ 12 * (s'.now - s0.now) =
              10 ^ 7 * 10 ^ 12 * (s.now - s0.now) + 10 ^ 7 * 10 ^ 12 * (s'.now - s.now) := by
            rw [← Nat.mul_add]; congr 1; omega
          have e3 : b'.value * (s'.now - s.now) ≤ 10 ^ 7 * 10 ^ 12 * (s'.now - s.now) := by
            apply Nat.mul_le_mul_right
            simpa [bondValue, hb'] using hV
          omega
        have hacc : ∀ b : Bond, s.td.bonds a = some b →
            (b.update c.balMax s.now).tokentime ≤ 10 ^ 7 * 10 ^ 12 * (s.now - s0.now) := by
          intro b hb
          refine Nat.le_trans ?_ (hT b hb).2
          simp only [Bond.update, satAdd, satMul]; omega
        cases tdEffect h a with
        | same _ hv => exact hsame (view_same hv).1
        | updated hn hb hv =>
          rw [(view_bond hv).1] at hb'; simp only [Option.some.injEq] at hb'; subst hb'
          have := hacc _ hb
          refine ⟨by simp [Bond.update, hn], ?_⟩
          rw [hn]
          simp only [Bond.update, Nat.sub_self, Nat.mul_zero, Nat.add_zero] at this ⊢
          exact this
        | bond hn _ hb _ hv =>
          rw [(view_bond hv).1] at hb'; simp only [Option.some.injEq] at hb'; subst hb'
          simp [hn]
        | extra hn _ hb hp _ hnew hv =>
          rw [(view_bond hv).1] at hb'; simp only [Option.some.injEq] at hb'; subst hb'
          have := hacc _ hb
          refine ⟨by simp [Bond.update, hn], ?_⟩
          rw [hn]
          simp only [Bond.update, Nat.sub_self, Nat.mul_zero, Nat.add_zero] at this ⊢
          exact this
        | @unbond v _ left b hn _ hb hp _ _ hleft hv =>
          rw [(view_bond hv).1] at hb'
          simp only [] at hb'
          split at hb'
          · simp at hb'
          · simp only [Option.some.injEq] at hb'; subst hb'
            have h1 := hacc _ hb
            have h2 := leftTokentime_le c.balMax (b.update c.balMax s.now) (new := b.value - v) (Nat.sub_le _ _)
            rw [← hleft] at h2
            refine ⟨by simp [hn], ?_⟩
            rw [hn]
            simp only [Nat.sub_self, Nat.mul_zero, Nat.add_zero]
            omega
        | withdraw hn _ hp _ hv => exact hsame (view_bond hv).1
    have := hrev ops.reverse
    simpa using this
  obtain ⟨_, hT⟩ := key ops hbond
  obtain ⟨_, h2⟩ := hT b hb
  have h3 : 10 ^ 7 * 10 ^ 12 * ((run c s0 ops).now - s0.now) ≤
      10 ^ 7 * 10 ^ 12 * (100 * 366 * 24 * 3600 * 1000) := Nat.mul_le_mul_left _ htime
  have hlt : b.tokentime + b.value * ((run c s0 ops).now - b.lastUpdated) < c.balMax := by
    rw [hmax]
    refine Nat.lt_of_le_of_lt (Nat.le_trans h2 h3) (by decide)
  refine ⟨?_, hlt⟩
  simp only [Bond.update, satAdd, satMul]
  omega

/-- C05: the same if the account never owns more than 10^7 TEER. -/
theorem C05_owned (c : Cfg) (s0 : Chain) (a : AccountId) (ops : List Op) (b : Bond)
    (hmax : c.balMax = 2 ^ 128 - 1) (h0 : s0.td.bonds a = none)
    (hfree : ∀ pre, pre <+: ops → (run c s0 pre).bal.free a ≤ 10 ^ 7 * 10 ^ 12)
    (htime : (run c s0 ops).now - s0.now ≤ 100 * 366 * 24 * 3600 * 1000)
    (hb : (run c s0 ops).td.bonds a = some b) :
    (b.update c.balMax (run c s0 ops).now).tokentime =
      b.tokentime + b.value * ((run c s0 ops).now - b.lastUpdated) := by
  refine (C05_no_saturation c s0 a ops b hmax h0 (fun pre hp => ?_) htime hb).1
  have key : ∀ l : List Op, l.reverse <+: ops → bondValue (run c s0 l.reverse) a ≤ 10 ^ 7 * 10 ^ 12 := by
    intro l
    induction l with
    | nil => intro _; simp [run_nil, bondValue, h0]
    | cons op l ih =>
      intro hp
      rw [List.reverse_cons] at hp ⊢
      have hp' : l.reverse <+: ops := (List.prefix_append _ _).trans hp
      rw [run_snoc]
      rcases step_cases c (run c s0 l.reverse) op with h | ⟨h, _⟩
      · exact bondValue_exec (ih hp') (hfree _ hp') h
      · rw [h]; exact ih hp'
  simpa using key pre.reverse (by simpa using hp)

example : cfg.balMax = 2 ^ 128 - 1 ∧ start.td.bonds alice = none ∧
    (∀ pre, pre <+: goodHistory → bondValue (run cfg start pre) alice ≤ 10 ^ 7 * 10 ^ 12 ∧
      (run cfg start pre).bal.free alice ≤ 10 ^ 7 * 10 ^ 12) ∧
    (run cfg start goodHistory).now - start.now ≤ 100 * 366 * 24 * 3600 * 1000 ∧
    (run cfg start goodHistory).td.bonds alice ≠ none := by
  refine ⟨by decide, by decide, ?_, by decide, by decide⟩
  intro pre hp
  rw [List.prefix_iff_eq_take.mp hp]
  have : pre.length < 10 := Nat.lt_succ_of_le hp.length_le
  generalize pre.length = n at *
  revert n
  decide

/-! ### C06 Unbonding burns tokentime pro rata -/

/-- The full claim: what is left is at most the exact share, less than `new` below it, and the event reports
the difference. It is false for the code (see `C06_refuted`): when what remains bonded is below the existential
deposit, the bond and all its tokentime vanish although the event reports only the pro-rata part as burned. -/
def C06_Full : Prop :=
  ∀ (c : Cfg) (s s' : Chain) (a : AccountId) (v : Nat) (b : Bond), s.td.bonds a = some b → v < b.value →
    exec c s (.ext (.signed a) (.unbond v)) = .ok s' →
    tokentimeNow c s' a * b.value ≤ tokentimeNow c s a * (b.value - v) ∧
    tokentimeNow c s a * (b.value - v) < (tokentimeNow c s' a + (b.value - v)) * b.value ∧
    s'.td.events.head? = some (.unbonded a v (tokentimeNow c s a - tokentimeNow c s' a))

/-- Alice unbonds 995 of 1000: the rest is below the existential deposit. -/
theorem C06_refuted : ¬ C06_Full := by
  intro h
  have := (h cfg bonded (step cfg bonded (.ext (.signed alice) (.unbond 995))) alice 995 ⟨1000, 5000, 0⟩
    (by decide) (by decide) (by unfold step; rfl)).2.2
  revert this
  decide

/-- C06, partial: if what stays bonded is not below the existential deposit, the tokentime left is at most the
pro-rata share, less than `new` below it, and the event reports exactly the burned difference.
Missing: a remainder below the existential deposit, for which the claim is false (everything is burned). -/
theorem C06_prorata_partial (c : Cfg) (s s' : Chain) (a : AccountId) (v : Nat) (b : Bond)
    (hb : s.td.bonds a = some b) (hv : v < b.value) (hr : c.ed ≤ b.value - v)
    (h : exec c s (.ext (.signed a) (.unbond v)) = .ok s') :
    bondValue s' a = b.value - v ∧
    tokentimeNow c s' a * b.value ≤ tokentimeNow c s a * (b.value - v) ∧
    tokentimeNow c s a * (b.value - v) < (tokentimeNow c s' a + (b.value - v)) * b.value ∧
    s'.td.events.head? = some (.unbonded a v (tokentimeNow c s a - tokentimeNow c s' a)) := by
  obtain ⟨a', b', due, ho, hp, he, hb', hd, rfl⟩ := Teerdays.unbond_ok.mp h
  simp only [Origin.signed.injEq] at ho; subst ho
  rw [hb, Option.some.injEq] at hb'; subst hb'
  have hnot : ¬ b.value - v < c.ed := by omega
  have hpos : b.value ≠ 0 := by omega
  have hu : (b.update c.balMax s.now).value = b.value := rfl
  have hle : (b.update c.balMax s.now).tokentime ≤ c.balMax := by
    simp only [Bond.update, satAdd]; omega
  generalize hacc : b.update c.balMax s.now = u at *
  have hleft : Teerdays.leftTokentime c.balMax u (b.value - v) = u.tokentime / b.value * (b.value - v) := by
    have h1 := leftTokentime_le c.balMax u (new := b.value - v) (by rw [hu]; omega)
    unfold Teerdays.leftTokentime satMul Teerdays.divOrZero at h1 ⊢
    rw [hu] at h1 ⊢
    simp only [hpos, if_false] at h1 ⊢
    have h2 : u.tokentime / b.value * (b.value - v) ≤ u.tokentime := by
      exact Nat.le_trans (Nat.mul_le_mul_left _ (Nat.sub_le _ _)) (Nat.div_mul_le_self _ _)
    omega
  have htn : tokentimeNow c s a = u.tokentime := by simp [tokentimeNow_def, hb, hacc]
  have htn' : ∀ ev pend, tokentimeNow c { s with td :=
      { bonds := upd s.td.bonds a (if b.value - v < c.ed then none else
            some { value := b.value - v, lastUpdated := s.now,
                   tokentime := Teerdays.leftTokentime c.balMax u (b.value - v) })
        pending := pend
        events := ev } } a = u.tokentime / b.value * (b.value - v) := by
    intro ev pend
    have : u.tokentime / b.value * (b.value - v) ≤ c.balMax := by
      refine Nat.le_trans (Nat.le_trans (Nat.mul_le_mul_left _ (Nat.sub_le _ _)) (Nat.div_mul_le_self _ _)) hle
    simp only [tokentimeNow_def, upd_same, hnot, if_false, Option.elim_some, Bond.update, Nat.sub_self, satMul,
      Nat.mul_zero, satAdd, hleft]
    omega
  refine ⟨by simp [bondValue, hnot], ?_, ?_, ?_⟩
  · rw [htn', htn]
    rw [Nat.mul_right_comm]
    exact Nat.mul_le_mul_right _ (Nat.div_mul_le_self _ _)
  · rw [htn', htn]
    have h1 : u.tokentime < (u.tokentime / b.value + 1) * b.value := by
      exact Nat.lt_mul_of_div_lt (Nat.lt_succ_self _) (Nat.pos_of_ne_zero hpos)
    have h2 : (u.tokentime / b.value * (b.value - v) + (b.value - v)) * b.value =
        (u.tokentime / b.value + 1) * b.value * (b.value - v) := by
      rw [Nat.mul_right_comm _ b.value, Nat.add_mul _ 1, Nat.one_mul]
    rw [h2]
    exact Nat.mul_lt_mul_of_pos_right h1 (by omega)
  · rw [htn', htn]
    simp only [List.head?_cons, Option.some.injEq, TdEvent.unbonded.injEq, true_and, hleft]
    exact ⟨by omega, trivial⟩

example : bonded.td.bonds alice = some ⟨1000, 5000, 0⟩ ∧ 300 < 1000 ∧ cfg.ed ≤ 1000 - 300 ∧
    tokentimeNow cfg bonded alice = 6000 ∧
    tokentimeNow cfg (step cfg bonded (.ext (.signed alice) (.unbond 300))) alice = 4200 := by decide

/-- C06: unbonding the whole bond burns all tokentime and the event reports all of it. -/
theorem C06_whole_bond (c : Cfg) (s s' : Chain) (a : AccountId) (v : Nat) (b : Bond)
    (hb : s.td.bonds a = some b) (hv : b.value ≤ v)
    (h : exec c s (.ext (.signed a) (.unbond v)) = .ok s') :
    bondValue s' a = 0 ∧ tokentimeNow c s' a = 0 ∧
    s'.td.events.head? = some (.unbonded a b.value (tokentimeNow c s a)) := by
  obtain ⟨a', b', due, ho, hp, he, hb', hd, rfl⟩ := Teerdays.unbond_ok.mp h
  simp only [Origin.signed.injEq] at ho; subst ho
  rw [hb, Option.some.injEq] at hb'; subst hb'
  have hz : b.value - v = 0 := by omega
  have hl : ∀ u : Bond, Teerdays.leftTokentime c.balMax u 0 = 0 := by
    intro u; simp [Teerdays.leftTokentime, satMul]
  simp only [hz, hl]
  refine ⟨?_, ?_, ?_⟩
  · simp only [bondValue, upd_same]; split <;> rfl
  · simp only [tokentimeNow_def, upd_same]; split <;> simp [Bond.update, satAdd, satMul]
  · simp [tokentimeNow_def, hb]

example : bonded.td.bonds alice = some ⟨1000, 5000, 0⟩ ∧ 1000 ≤ 2000 ∧
    (step cfg bonded (.ext (.signed alice) (.unbond 2000))).td.events.head? = some (.unbonded alice 1000 6000) := by
  decide

/-! ### C07 Bonds are covered by free balance and cannot be transferred away -/

/-- C07: `bond` and `bond_extra` never bond more than the account's free balance (unless the old bond was
already larger). -/
theorem C07_bond_covered (c : Cfg) (s s' : Chain) (a : AccountId) (v : Nat)
    (h : exec c s (.ext (.signed a) (.bond v)) = .ok s' ∨ exec c s (.ext (.signed a) (.bondExtra v)) = .ok s') :
    bondValue s' a ≤ max (bondValue s a) (s.bal.free a) ∧ bondValue s' a ≤ bondValue s a + v := by
  rcases h with h | h
  · obtain ⟨a', ho, hb, he, rfl⟩ := Teerdays.bond_ok.mp h
    simp only [Origin.signed.injEq] at ho; subst ho
    simp only [bondValue, upd_same, Option.elim_some]
    omega
  · obtain ⟨a', b, ho, hp, he, hb, rfl⟩ := Teerdays.bondExtra_ok.mp h
    simp only [Origin.signed.injEq] at ho; subst ho
    simp only [bondValue, upd_same, Option.elim_some, hb, satAdd]
    omega

example : bondValue (step cfg start (.ext (.signed alice) (.bond 4000))) alice = 1000 := by decide

/-- The full claim for histories. It is false for the code (see `C07_refuted`). -/
def C07_Full : Prop :=
  ∀ (c : Cfg) (s0 : Chain) (a : AccountId) (ops : List Op), TdFresh s0 a → (∀ op ∈ ops, ¬ IsSlash a op) →
    tdLock (run c s0 ops) a ≤ (run c s0 ops).bal.free a

/-- After the re-bonding trick and sending everything away, `bond_extra` sets a lock on money that is not
there. -/
theorem C07_refuted : ¬ C07_Full := by
  intro h
  have := h cfg start alice (rebondHistory ++
    [.ext (.signed alice) (.balTransfer bob 1000), .ext (.signed alice) (.bondExtra 10)]) (by decide) (by decide)
  revert this
  decide

/-- C07, partial: for an account that is not slashed and does not bond while an unlock is pending, the lock
never exceeds the free balance and covers bond and pending unlock. Missing: the re-bonding histories. -/
theorem C07_lock_le_free_partial (c : Cfg) (s0 : Chain) (a : AccountId) (ops : List Op)
    (h0 : TdFresh s0 a) (hS : ∀ op ∈ ops, ¬ IsSlash a op) (hN : NoRebond c a s0 ops) :
    bondValue (run c s0 ops) a + pendingAmount (run c s0 ops) a ≤ tdLock (run c s0 ops) a ∧
    tdLock (run c s0 ops) a ≤ (run c s0 ops).bal.free a := by
  refine run_noRebond (P := fun s => LockLo s a ∧ tdLock s a ≤ s.bal.free a) (Q := fun op => ¬ IsSlash a op)
    ?_ ?_ ops hN hS
  · intro s s' op hS hN h0 h; exact covered_exec hS hN h0 h
  · simp [LockLo, bondValue, pendingAmount, h0.1, h0.2.1, h0.2.2.1]

example : TdFresh start alice ∧
    (∀ op ∈ goodHistory ++ [.ext (.signed alice) (.balTransfer bob 700)], ¬ IsSlash alice op) ∧
    NoRebond cfg alice start (goodHistory ++ [.ext (.signed alice) (.balTransfer bob 700)]) ∧
    (run cfg start (goodHistory ++ [.ext (.signed alice) (.balTransfer bob 700)])).bal.free alice = 300 := by
  decide

/-! ### C08 One bond and one pending unlock per account -/

/-- C08: `bond` fails if there is a bond; `bond_extra` and `unbond` fail while an unlock is pending. -/
theorem C08_refused (c : Cfg) (s : Chain) (a : AccountId) (v : Nat) :
    (s.td.bonds a ≠ none → exec c s (.ext (.signed a) (.bond v)) = .error .alreadyBonded) ∧
    (s.td.pending a ≠ none → exec c s (.ext (.signed a) (.bondExtra v)) = .error .pendingUnlock ∧
      exec c s (.ext (.signed a) (.unbond v)) = .error .pendingUnlock) := by
  constructor
  · intro h
    cases hb : s.td.bonds a with
    | none => exact absurd hb h
    | some b => simp [exec, dispatch, Teerdays.bond, ensureSigned, hb, ensure, bind, Except.bind]
  · intro h
    cases hb : s.td.pending a with
    | none => exact absurd hb h
    | some b =>
      simp [exec, dispatch, Teerdays.bondExtra, Teerdays.unbond, ensureSigned, hb, ensure, bind, Except.bind]

example : unbonded.td.pending alice ≠ none ∧ bonded.td.bonds alice ≠ none := by decide

/-- C08: a pending unlock is never changed; it only disappears by the account's own withdrawal, not before its
deadline. -/
theorem C08_pending_stable (c : Cfg) (s s' : Chain) (a : AccountId) (op : Op) (due amount : Nat)
    (hp : s.td.pending a = some (due, amount)) (h : exec c s op = .ok s') :
    s'.td.pending a = some (due, amount) ∨
      (op = .ext (.signed a) .withdrawUnbonded ∧ due ≤ s.now ∧ s'.td.pending a = none) := by
  rcases pending_exec hp h with ⟨h, _⟩ | h
  · exact .inl h
  · exact .inr h

example : unbonded.td.pending alice = some (6006, 1000) ∧
    (run cfg unbonded [.newBlock 1000, .ext (.signed alice) .withdrawUnbonded]).td.pending alice = none := by
  decide

/-- C08: every pending unlock stems from one successful `unbond` of this account; its deadline is the time of
that call plus the unlock period, and its amount is what was unbonded. -/
theorem C08_pending_origin (c : Cfg) (s0 : Chain) (a : AccountId) (ops : List Op) (due amount : Nat)
    (h0 : s0.td.pending a = none) (hp : (run c s0 ops).td.pending a = some (due, amount)) :
    ∃ s v, (s, Op.ext (.signed a) (.unbond v)) ∈ accepted c s0 ops ∧
      (s.now + c.unlockPeriod ≤ c.momentMax → due = s.now + c.unlockPeriod) ∧
      amount = min v (bondValue s a) := by
  have key := history_induction (c := c) (s0 := s0)
    (P := fun s acc => ∀ due amount, s.td.pending a = some (due, amount) →
      ∃ s v, (s, Op.ext (.signed a) (.unbond v)) ∈ acc ∧
        (s.now + c.unlockPeriod ≤ c.momentMax → due = s.now + c.unlockPeriod) ∧
        amount = min v (bondValue s a))
    (by intro d m h; rw [h0] at h; simp at h)
    (by
      intro s s' op acc ih h d m hd
      have old : s.td.pending a = some (d, m) →
          ∃ s1 v, (s1, Op.ext (.signed a) (.unbond v)) ∈ acc ++ [(s, op)] ∧
          (s1.now + c.unlockPeriod ≤ c.momentMax → d = s1.now + c.unlockPeriod) ∧
          m = min v (bondValue s1 a) := by
        intro h
        obtain ⟨s1, v, h1, h2⟩ := ih d m h
        exact ⟨s1, v, by simp [h1], h2⟩
      cases tdEffect h a with
      | same _ hv => rw [(view_same hv).2.1] at hd; exact old hd
      | updated _ _ hv => rw [(view_bond hv).2.1] at hd; exact old hd
      | bond _ _ _ _ hv => rw [(view_bond hv).2.1] at hd; exact old hd
      | extra _ _ _ _ _ _ hv => rw [(view_bond hv).2.1] at hd; simp at hd
      | @unbond v due' _ b _ _ hb _ _ hdue _ hv =>
        rw [(view_bond hv).2.1] at hd
        simp only [Option.some.injEq, Prod.mk.injEq] at hd
        refine ⟨s, v, by simp, ?_, ?_⟩
        · intro hfit
          rcases plainAdd_eq_ok.mp hdue with ⟨_, h⟩ | ⟨_, _⟩ <;> omega
        · simp only [bondValue, hb, Option.elim_some]; omega
      | withdraw _ _ _ _ hv => rw [(view_bond hv).2.1] at hd; simp at hd)
    ops
  exact key due amount hp

example : start.td.pending alice = none ∧ (run cfg start goodHistory).td.pending alice = some (7012, 50) := by
  decide

/-! ### C09 Nobody can change another account's bond -/

/-- C09: any operation that is not one of the account's own bond-managing calls leaves its bond value, pending
unlock and teerdays lock as they are; the bond is untouched, or brought up to date by an `update_other`. -/
theorem C09_foreign_operations (c : Cfg) (s s' : Chain) (a : AccountId) (op : Op) (hno : ¬ OwnTdCall a op)
    (h : exec c s op = .ok s') :
    bondValue s' a = bondValue s a ∧ s'.td.pending a = s.td.pending a ∧ tdLock s' a = tdLock s a ∧
    (s'.td.bonds a = s.td.bonds a ∨
      ((∃ x, op = .ext (.signed x) (.updateOther a)) ∧
        s'.td.bonds a = (s.td.bonds a).map fun b => b.update c.balMax s.now)) := by
  cases tdEffect h a with
  | same _ hv =>
    obtain ⟨h1, h2, h3⟩ := view_same hv
    exact ⟨by simp [bondValue, h1], h2, h3, .inl h1⟩
  | updated _ hb hv =>
    obtain ⟨h1, h2, h3⟩ := view_bond hv
    exact ⟨by simp [bondValue, h1, hb, Bond.update], h2, h3, .inr ⟨⟨_, rfl⟩, by rw [h1, hb]; rfl⟩⟩
  | bond => exact absurd (.inl ⟨_, rfl⟩) hno
  | extra => exact absurd (.inr (.inl ⟨_, rfl⟩)) hno
  | unbond => exact absurd (.inr (.inr (.inl ⟨_, rfl⟩))) hno
  | withdraw => exact absurd (.inr (.inr (.inr rfl))) hno

example : ¬ OwnTdCall alice (.ext (.signed bob) (.bond 100)) ∧ ¬ OwnTdCall alice (.ext (.signed bob) (.updateOther alice)) ∧
    (step cfg bonded (.ext (.signed bob) (.updateOther alice))).td.bonds alice = some ⟨1000, 5006, 6000⟩ := by
  decide

/-! ### C10 Unbonded tokens are released at most once -/

/-- C10: the withdrawals of an account match its unbondings one to one in order (the newest unbonding may be
pending), each withdrawal releasing at most what was unbonded; so in total never more than was unbonded. -/
theorem C10_released_at_most_once (c : Cfg) (s0 : Chain) (a : AccountId) (ops : List Op) (h0 : TdFresh s0 a) :
    (∃ u, unbondedAmounts a (run c s0 ops).td.events = ((run c s0 ops).td.pending a).toList.map (·.2) ++ u ∧
      (withdrawnAmounts a (run c s0 ops).td.events).length = u.length ∧
      ∀ p ∈ (withdrawnAmounts a (run c s0 ops).td.events).zip u, p.1 ≤ p.2) ∧
    (withdrawnAmounts a (run c s0 ops).td.events).sum + pendingAmount (run c s0 ops) a ≤
      (unbondedAmounts a (run c s0 ops).td.events).sum := by
  have h := run_invariant (c := c) (P := fun s => Matched s a) (fun _ _ _ h h' => matched_exec h h')
    (s := s0) (by
      obtain ⟨_, h2, _, h4⟩ := h0
      exact ⟨[], by simp [unbondedAmounts, h2, h4], by simp [withdrawnAmounts, h4], by simp⟩) ops
  refine ⟨h, ?_⟩
  obtain ⟨u, h1, h2, h3⟩ := h
  have := sum_le_of_zip h2 h3
  rw [h1]
  cases hp : (run c s0 ops).td.pending a <;> simp [pendingAmount, hp] <;> omega

example : TdFresh start alice ∧ unbondedAmounts alice (run cfg start goodHistory).td.events = [50, 200] ∧
    withdrawnAmounts alice (run cfg start goodHistory).td.events = [200] ∧
    (run cfg start goodHistory).td.pending alice = some (7012, 50) := by decide

/-- C10: with an account that does not bond while an unlock is pending, every withdrawal releases exactly what
was unbonded. -/
theorem C10_released_exactly (c : Cfg) (s0 : Chain) (a : AccountId) (ops : List Op) (h0 : TdFresh s0 a)
    (hN : NoRebond c a s0 ops) :
    unbondedAmounts a (run c s0 ops).td.events =
      ((run c s0 ops).td.pending a).toList.map (·.2) ++ withdrawnAmounts a (run c s0 ops).td.events := by
  have := run_noRebond (c := c) (a := a) (P := fun s => LockLo s a ∧ MatchedExactly s a) (Q := fun _ => True)
    (fun s s' op _ hN h0 h => ⟨lockLo_exec hN h0.1 h, matchedExactly_exec h0.1 h0.2 h⟩) (s := s0) (by
      obtain ⟨h1, h2, h3, h4⟩ := h0
      simp [LockLo, MatchedExactly, bondValue, pendingAmount, h1, h2, h4, unbondedAmounts, withdrawnAmounts])
    ops hN (by simp)
  exact this.2

example : TdFresh start alice ∧ NoRebond cfg alice start goodHistory := by decide

/-! ### C11 Unbonding everything releases everything -/

/-- The full claim. It is false for the code (see `C11_refuted`). -/
def C11_Full : Prop :=
  ∀ (c : Cfg) (s0 : Chain) (a : AccountId) (ops : List Op), TdFresh s0 a → NoRebond c a s0 ops →
    (run c s0 ops).td.bonds a = none → (run c s0 ops).td.pending a = none → tdLock (run c s0 ops) a = 0

/-- Alice bonds 1000 and unbonds 995. The rest of 5 is below the existential deposit, so the bond is removed;
but it stays locked after the withdrawal. -/
def dustHistory : List Op :=
  [.ext (.signed alice) (.bond 1000), .ext (.signed alice) (.unbond 995), .newBlock 1000,
   .ext (.signed alice) .withdrawUnbonded]

theorem C11_refuted : ¬ C11_Full := by
  intro h
  have := h cfg start alice dustHistory (by decide) (by decide) (by decide) (by decide)
  revert this
  decide

/-- C11, partial: without a bond and a pending unlock less than the existential deposit stays locked (nothing
if the existential deposit is at most one). In general the lock exceeds bond and pending unlock by less than the
existential deposit, and not at all while something is bonded. -/
theorem C11_left_locked_partial (c : Cfg) (s0 : Chain) (a : AccountId) (ops : List Op) (hB : 0 < c.balMax)
    (h0 : TdFresh s0 a) (hN : NoRebond c a s0 ops) :
    tdLock (run c s0 ops) a ≤ bondValue (run c s0 ops) a + pendingAmount (run c s0 ops) a + (c.ed - 1) ∧
    (0 < bondValue (run c s0 ops) a →
      tdLock (run c s0 ops) a = bondValue (run c s0 ops) a + pendingAmount (run c s0 ops) a) := by
  have := run_noRebond (c := c) (a := a) (P := fun s => LockHi c s a) (Q := fun _ => True)
    (fun s s' op _ hN h0 h => lockHi_exec hB hN h0 h) (s := s0) (by
      obtain ⟨h1, h2, h3, h4⟩ := h0
      simp [LockHi, LockLo, bondValue, pendingAmount, h1, h2, h3]) ops hN (by simp)
  exact this.2

example : TdFresh start alice ∧ NoRebond cfg alice start dustHistory ∧ 0 < cfg.balMax ∧
    tdLock (run cfg start dustHistory) alice = 5 := by decide

/-- C11, partial: whoever unbonds at least the whole bond gets everything: after the withdrawal nothing is
locked. Missing: unbondings that leave a remainder below the existential deposit (claim false). -/
theorem C11_whole_bond_partial (c : Cfg) (s0 s1 s2 : Chain) (a : AccountId) (v : Nat) (ops0 ops : List Op)
    (hB : 0 < c.balMax) (h0 : TdFresh s0 a) (hN : NoRebond c a s0 ops0)
    (hpos : 0 < bondValue (run c s0 ops0) a) (hv : bondValue (run c s0 ops0) a ≤ v)
    (hu : exec c (run c s0 ops0) (.ext (.signed a) (.unbond v)) = .ok s1)
    (hops : ∀ op ∈ ops, ¬ OwnTdCall a op)
    (hw : exec c (run c s1 ops) (.ext (.signed a) .withdrawUnbonded) = .ok s2) : tdLock s2 a = 0 := by
  have hL := (C11_left_locked_partial c s0 a ops0 hB h0 hN).2 hpos
  generalize run c s0 ops0 = s at *
  have h1 : tdLock s1 a = pendingAmount s1 a := by
    cases tdEffect hu a with
    | same hno => exact absurd (.inr (.inr (.inl ⟨_, rfl⟩))) hno
    | unbond _ _ hb hp _ _ _ hv' =>
      obtain ⟨e1, e2, e3⟩ := view_bond hv'
      unfold pendingAmount bondValue at *
      rw [e2, e3]
      simp only [hb, hp, Option.elim_some, Option.elim_none] at *
      omega
  have h2 : tdLock (run c s1 ops) a = pendingAmount (run c s1 ops) a := by
    refine run_invariant' (P := fun s => tdLock s a = pendingAmount s a) (Q := fun op => ¬ OwnTdCall a op)
      ?_ h1 ops hops
    intro s s' op hno h h'
    have := C09_foreign_operations c s s' a op hno h'
    unfold pendingAmount at *
    rw [this.2.1, this.2.2.1]; exact h
  cases tdEffect hw a with
  | same hno => exact absurd (.inr (.inr (.inr rfl))) hno
  | withdraw _ _ hp _ hv' =>
    obtain ⟨e1, e2, e3⟩ := view_bond hv'
    unfold pendingAmount at h2
    rw [e3]
    simp only [hp, Option.elim_some] at *
    omega

example : ∃ s1 s2, 0 < bondValue (run cfg start goodHistory) alice ∧
    exec cfg bonded (.ext (.signed alice) (.unbond 1000)) = .ok s1 ∧
    (∀ op ∈ [Op.newBlock 1000], ¬ OwnTdCall alice op) ∧
    exec cfg (run cfg s1 [.newBlock 1000]) (.ext (.signed alice) .withdrawUnbonded) = .ok s2 :=
  ⟨unbonded, step cfg (run cfg unbonded [.newBlock 1000]) (.ext (.signed alice) .withdrawUnbonded),
    by decide, by unfold unbonded step; rfl, by decide, by unfold step; rfl⟩

end Verif
