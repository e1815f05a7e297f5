import Verif.Model.Runtime

/-!
# Inversion lemmas: what a successful call did
-/

namespace Verif

@[simp] theorem ensureSigned_eq_ok {o : Origin} {a : AccountId} : ensureSigned o = .ok a ↔ o = .signed a := by
  cases o <;> simp [ensureSigned]

@[simp] theorem ensureRoot_eq_ok {o : Origin} {u : Unit} : ensureRoot o = .ok u ↔ o = .root := by
  cases o <;> simp [ensureRoot]

@[simp] theorem ensureNone_eq_ok {o : Origin} {u : Unit} : ensureNone o = .ok u ↔ o = .none := by
  cases o <;> simp [ensureNone]

@[simp] theorem ensureSignedOrRoot_eq_ok {o : Origin} {m : Option AccountId} :
    ensureSignedOrRoot o = .ok m ↔ (o = .root ∧ m = none) ∨ ∃ a, o = .signed a ∧ m = some a := by
  cases o <;> simp [ensureSignedOrRoot] <;> constructor <;> rintro rfl <;> simp_all

theorem plainAdd_eq_ok {c : Cfg} {max a b r : Nat} :
    plainAdd c max a b = .ok r ↔
      (a + b ≤ max ∧ r = a + b) ∨ (max < a + b ∧ c.overflowChecks = false ∧ r = (a + b) % (max + 1)) := by
  unfold plainAdd
  split
  · simp_all; constructor
    · rintro rfl; simp
    · rintro (h | h)
      · exact h.symm
      · omega
  · split
    · simp_all; omega
    · simp_all; constructor
      · rintro rfl; simp
      · rintro (h | h)
        · omega
        · exact h.symm


/-- Simplification set for the inversion of `do` blocks. -/
macro "inv_simp" loc:(Lean.Parser.Tactic.location)? : tactic =>
  `(tactic| simp only [bind_eq_ok, ensure_eq_ok, okOr_eq_ok, mapErr_eq_ok, ensureSigned_eq_ok, ensureRoot_eq_ok,
      ensureNone_eq_ok, decide_eq_true_eq, Except.ok.injEq, pure_eq_ok, exists_const, Prod.exists, Prod.mk.injEq,
      Option.isNone_iff_eq_none, ge_iff_le, exists_eq_left', exists_eq_left, reduceCtorEq, and_false, exists_false,
      false_and, Bool.not_eq_true', decide_eq_false_iff_not, Nat.not_lt, beq_iff_eq] $[$loc]?)

/-! ### Teerdays -/

namespace Teerdays

theorem doUpdate_ok {c : Cfg} {s : Chain} {a : AccountId} {b' : Bond} {s' : Chain} :
    doUpdate c s a = .ok (b', s') ↔ ∃ b, s.td.bonds a = some b ∧ b' = b.update c.balMax s.now ∧
      s' = { s with td := { s.td with
            bonds := upd s.td.bonds a (some b')
            events := .tokenTimeUpdated a b' :: s.td.events } } := by
  unfold doUpdate setBond emit
  inv_simp
  constructor
  · rintro ⟨b, h, rfl, rfl⟩; exact ⟨b, h, rfl, rfl⟩
  · rintro ⟨b, h, rfl, rfl⟩; exact ⟨b, h, rfl, rfl⟩

theorem tryWithdraw_ok {s s' : Chain} {a : AccountId} {n : Nat} :
    tryWithdraw s a = .ok (n, s') ↔ ∃ due amount, s.td.pending a = some (due, amount) ∧ due ≤ s.now ∧
      n = min amount (s.bal.lock .teerdays a) ∧
      s' = { s with
        bal := if n = s.bal.lock .teerdays a then s.bal.removeLock .teerdays a
          else s.bal.setLock .teerdays a (s.bal.lock .teerdays a - n)
        td := { s.td with pending := upd s.td.pending a none } } := by
  unfold tryWithdraw setPending
  inv_simp
  constructor
  · rintro ⟨d, m, h, h1, rfl, rfl⟩; exact ⟨d, m, h, h1, rfl, rfl⟩
  · rintro ⟨d, m, h, h1, rfl, rfl⟩; exact ⟨d, m, h, h1, rfl, rfl⟩

theorem bond_ok {c : Cfg} {s s' : Chain} {o : Origin} {v : Nat} :
    bond c s o v = .ok s' ↔ ∃ a, o = .signed a ∧ s.td.bonds a = none ∧ c.ed ≤ v ∧
      s' = { s with
        bal := s.bal.setLock .teerdays a (min v (s.bal.free a))
        td := { s.td with
          bonds := upd s.td.bonds a
            (some { value := min v (s.bal.free a), lastUpdated := s.now, tokentime := 0 })
          events := .bonded a (min v (s.bal.free a)) :: s.td.events } } := by
  unfold bond setBond emit
  inv_simp
  simp only [eq_comm]

theorem bondExtra_ok {c : Cfg} {s s' : Chain} {o : Origin} {v : Nat} :
    bondExtra c s o v = .ok s' ↔ ∃ a b, o = .signed a ∧ s.td.pending a = none ∧ c.ed ≤ v ∧
      s.td.bonds a = some b ∧
      s' = { s with
        bal := s.bal.setLock .teerdays a (satAdd c.balMax b.value (min v (s.bal.free a - b.value)))
        td := { s.td with
          bonds := upd s.td.bonds a
            (some { (b.update c.balMax s.now) with
              value := satAdd c.balMax b.value (min v (s.bal.free a - b.value)) })
          events := .bonded a (min v (s.bal.free a - b.value)) ::
            .tokenTimeUpdated a (b.update c.balMax s.now) :: s.td.events } } := by
  unfold bondExtra setBond emit
  inv_simp
  simp only [doUpdate_ok]
  have key : ∀ (m : AccountId → Option Bond) a x y, upd (upd m a x) a y = upd m a y := by
    intro m a x y; funext z; simp only [upd]; split <;> rfl
  constructor
  · rintro ⟨a, rfl, h1, h2, _, _, ⟨b, h3, rfl, rfl⟩, rfl⟩
    refine ⟨a, b, rfl, h1, h2, h3, ?_⟩
    simp only [key]
    rfl
  · rintro ⟨a, b, rfl, h1, h2, h3, rfl⟩
    refine ⟨a, rfl, h1, h2, _, _, ⟨b, h3, rfl, rfl⟩, ?_⟩
    simp only [key]
    rfl

/-- The tokentime that `unbond` leaves. -/
def leftTokentime (balMax : Nat) (b : Bond) (new : Nat) : Nat :=
  satMul balMax (divOrZero b.tokentime b.value) new

theorem unbond_ok {c : Cfg} {s s' : Chain} {o : Origin} {v : Nat} :
    unbond c s o v = .ok s' ↔ ∃ a b due, o = .signed a ∧ s.td.pending a = none ∧ c.ed ≤ v ∧
      s.td.bonds a = some b ∧ plainAdd c c.momentMax s.now c.unlockPeriod = .ok due ∧
      s' = { s with
        td := {
          bonds := upd s.td.bonds a (if b.value - v < c.ed then none else
            some { value := b.value - v, lastUpdated := s.now,
                   tokentime := leftTokentime c.balMax (b.update c.balMax s.now) (b.value - v) })
          pending := upd s.td.pending a (some (due, b.value - (b.value - v)))
          events := .unbonded a (b.value - (b.value - v)) ((b.update c.balMax s.now).tokentime -
              leftTokentime c.balMax (b.update c.balMax s.now) (b.value - v)) ::
            .tokenTimeUpdated a (b.update c.balMax s.now) :: s.td.events } } := by
  unfold unbond setBond setPending emit
  inv_simp
  simp only [doUpdate_ok]
  have key : ∀ (m : AccountId → Option Bond) a x y, upd (upd m a x) a y = upd m a y := by
    intro m a x y; funext z; simp only [upd]; split <;> rfl
  constructor
  · rintro ⟨a, rfl, h1, h2, _, _, ⟨b, h3, rfl, rfl⟩, due, h4, rfl⟩
    refine ⟨a, b, due, rfl, h1, h2, h3, h4, ?_⟩
    simp only [key]
    rfl
  · rintro ⟨a, b, due, rfl, h1, h2, h3, h4, rfl⟩
    refine ⟨a, rfl, h1, h2, _, _, ⟨b, h3, rfl, rfl⟩, due, h4, ?_⟩
    simp only [key]
    rfl

theorem updateOther_ok {c : Cfg} {s s' : Chain} {o : Origin} {who : AccountId} :
    updateOther c s o who = .ok s' ↔ ∃ a b, o = .signed a ∧ s.td.bonds who = some b ∧
      s' = { s with td := { s.td with
            bonds := upd s.td.bonds who (some (b.update c.balMax s.now))
            events := .tokenTimeUpdated who (b.update c.balMax s.now) :: s.td.events } } := by
  unfold updateOther
  inv_simp
  simp only [doUpdate_ok]
  constructor
  · rintro ⟨a, rfl, _, _, ⟨b, h3, rfl, rfl⟩, rfl⟩; exact ⟨a, b, rfl, h3, rfl⟩
  · rintro ⟨a, b, rfl, h3, rfl⟩; exact ⟨a, rfl, _, _, ⟨b, h3, rfl, rfl⟩, rfl⟩

theorem withdrawUnbonded_ok {s s' : Chain} {o : Origin} :
    withdrawUnbonded s o = .ok s' ↔ ∃ a due amount, o = .signed a ∧ s.td.pending a = some (due, amount) ∧
      due ≤ s.now ∧
      s' = { s with
        bal := if min amount (s.bal.lock .teerdays a) = s.bal.lock .teerdays a then
            s.bal.removeLock .teerdays a
          else s.bal.setLock .teerdays a (s.bal.lock .teerdays a - min amount (s.bal.lock .teerdays a))
        td := { s.td with
          pending := upd s.td.pending a none
          events := .withdrawn a (min amount (s.bal.lock .teerdays a)) :: s.td.events } } := by
  unfold withdrawUnbonded emit
  inv_simp
  simp only [tryWithdraw_ok]
  constructor
  · rintro ⟨a, rfl, _, _, ⟨d, m, h, h1, rfl, rfl⟩, rfl⟩; exact ⟨a, d, m, rfl, h, h1, rfl⟩
  · rintro ⟨a, d, m, rfl, h, h1, rfl⟩; exact ⟨a, rfl, _, _, ⟨d, m, h, h1, rfl, rfl⟩, rfl⟩

end Teerdays

end Verif
