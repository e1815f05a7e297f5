import Verif.Proofs.BridgeInv

/-!
# Effects of all operations on free balances and total issuance
-/

namespace Verif

open EnclaveBridge

/-- The ways in which an operation affects free balances and total issuance. -/
inductive CurrencyEffect (c : Cfg) (s s' : Chain) (op : Op) : Prop where
  | same (h : s'.bal.free = s.bal.free) (hi : s'.bal.issuance = s.bal.issuance)
  | transfer (src dst : AccountId) (v : Nat) (h : s.bal.transfer c.ed c.balMax src dst v = .ok s'.bal)
      (hop : (∃ inc, op = .ext (.signed src) (.shieldFunds dst inc v)) ∨
        op = .ext (.signed src) (.balTransfer dst v) ∨
        (∃ b hash, op = .ext (.signed b) (.unshieldFunds src dst v hash) ∧ RightEnclave s src b ∧
          s.br.executed hash = none))
  | claim (k : ClaimsCall) (o : Origin) (g : EthAddr) (dest : AccountId) (due : Nat) (hop : op = .ext o (.claims k))
      (hc : s.cl.claims g = some due) (ht : due ≤ s.cl.total)
      (h : s'.bal.free = (s.bal.depositCreating c.ed c.balMax dest due).free)
      (hi : s'.bal.issuance = (s.bal.depositCreating c.ed c.balMax dest due).issuance)
      (hcl : s'.cl.total = s.cl.total - due) (hcc : s'.cl.claims = upd s.cl.claims g none)
  | mint (a : AccountId) (n : Nat) (hop : op = .mint a n) (h : s'.bal = s.bal.depositCreating c.ed c.balMax a n)
  | slash (a : AccountId) (n : Nat) (hop : op = .slash a n)
      (h : s'.bal.free = upd s.bal.free a (s.bal.free a - n))
      (hi : s'.bal.issuance = s.bal.issuance - min n (s.bal.free a))

theorem currency_effect {c : Cfg} {s s' : Chain} {op : Op} (h : exec c s op = .ok s') :
    CurrencyEffect c s s' op := by
  by_cases hp : Part.currency ∈ op.parts
  · cases op with
    | ext o k =>
      cases k with
      | bond v => obtain ⟨_, _, _, _, rfl⟩ := Teerdays.bond_ok.mp h; exact .same (by simp) (by simp)
      | bondExtra v => obtain ⟨_, _, _, _, _, _, rfl⟩ := Teerdays.bondExtra_ok.mp h; exact .same (by simp) (by simp)
      | withdrawUnbonded =>
        obtain ⟨_, _, _, _, _, _, rfl⟩ := Teerdays.withdrawUnbonded_ok.mp h
        refine .same ?_ ?_ <;> (simp only; split <;> simp)
      | shieldFunds =>
        obtain ⟨b, bb, rfl, hb, rfl⟩ := shieldFunds_ok.mp h
        exact .transfer _ _ _ hb (.inl ⟨_, rfl⟩)
      | unshieldFunds x ben am g =>
        obtain ⟨b, e, l, ⟨rfl, h1, h2, _⟩, (⟨h5, bb, n, hb, _, rfl⟩ | ⟨k, n, h5, _, rfl⟩)⟩ := unshieldFunds_ok.mp h
        · exact .transfer _ _ _ hb (.inr (.inr ⟨b, g, rfl, ⟨e, h1, h2⟩, h5⟩))
        · exact .same rfl rfl
      | claims k =>
        have key : ∀ {s1 s2 : Chain} {g d}, Claims.processClaim c s g d = .ok s1 → s2.bal = s1.bal →
            s2.cl.total = s1.cl.total → s2.cl.claims = s1.cl.claims → CurrencyEffect c s s2 (.ext o (.claims k)) := by
          intro s1 s2 g d h hb ht hc
          obtain ⟨due, bal, h1, h2, hp, rfl⟩ := Claims.processClaim_ok.mp h
          exact .claim k o g d due rfl h1 h2 (by rw [hb]; exact (paid_cases hp).1)
            (by rw [hb]; exact (paid_cases hp).2.1) ht hc
        cases k with
        | claim => obtain ⟨_, _, _, _, hp⟩ := Claims.claim_ok.mp h; exact key hp rfl rfl rfl
        | claimAttest => obtain ⟨_, _, _, _, hp⟩ := Claims.claimAttest_ok.mp h; exact key hp rfl rfl rfl
        | attest => obtain ⟨_, _, _, _, _, _, hp, rfl⟩ := Claims.attest_ok.mp h; exact key hp rfl rfl rfl
        | mintClaim => simp [Op.parts, Call.parts] at hp
        | moveClaim => simp [Op.parts, Call.parts] at hp
      | balTransfer dst amount =>
        obtain ⟨src, b, rfl, hb, rfl⟩ := balTransfer_ok.mp h
        exact .transfer _ _ _ hb (.inr (.inl rfl))
      | _ => simp [Op.parts, Call.parts] at hp
    | slash x n =>
      simp only [exec, Except.ok.injEq] at h
      subst h
      exact .slash x n rfl rfl rfl
    | mint x n =>
      simp only [exec, Except.ok.injEq] at h
      subst h
      exact .mint x n rfl rfl
    | setOtherLock x n =>
      simp only [exec, Except.ok.injEq] at h
      subst h
      exact .same rfl rfl
    | vest x =>
      simp only [exec, Except.ok.injEq] at h
      subst h
      exact .same rfl rfl
    | addVesting x v =>
      simp only [exec] at h
      split at h
      · rename_i b hb
        simp only [Except.ok.injEq] at h
        subst h
        exact .same (Balances.addVesting_free hb).1 (Balances.addVesting_free hb).2
      · simp at h
    | _ => simp [Op.parts] at hp
  · have : s'.bal = s.bal := exec_frame h .currency hp
    exact .same (by rw [this]) (by rw [this])

/-- Every way in which the free balance of an account can decrease. -/
theorem free_decrease {c : Cfg} {s s' : Chain} {op : Op} (h : exec c s op = .ok s') (a : AccountId)
    (hd : s'.bal.free a < s.bal.free a) :
    (∃ k, op = .ext (.signed a) k) ∨ (∃ n, op = .slash a n) ∨
    (∃ b ben amount hash, op = .ext (.signed b) (.unshieldFunds a ben amount hash) ∧ RightEnclave s a b ∧
      s.br.executed hash = none) := by
  cases currency_effect h with
  | same h => rw [h] at hd; omega
  | transfer src dst v ht hop =>
    have : a = src := by
      rcases Balances.transfer_ok ht with ⟨_, e⟩ | ⟨_, _, _, _, _, _, e⟩
      · rw [e] at hd; omega
      · rw [e] at hd
        simp only [upd_apply] at hd
        by_cases h1 : a = dst
        · subst h1; simp only [if_true] at hd; omega
        · by_cases h2 : a = src
          · exact h2
          · simp only [h1, h2, if_false] at hd; omega
    subst this
    rcases hop with ⟨_, rfl⟩ | rfl | ⟨b, hash, h1, h2, h3⟩
    · exact .inl ⟨_, rfl⟩
    · exact .inl ⟨_, rfl⟩
    · exact .inr (.inr ⟨b, dst, v, hash, h1, h2, h3⟩)
  | claim k o g dest due hop hc ht h =>
    rw [h] at hd
    have := Balances.depositCreating_free_le c.ed c.balMax s.bal dest a due
    omega
  | mint x n hop h =>
    rw [h] at hd
    have := Balances.depositCreating_free_le c.ed c.balMax s.bal x a n
    omega
  | slash x n hop h =>
    rw [h] at hd
    by_cases hx : a = x
    · subst hx; exact .inr (.inl ⟨n, hop⟩)
    · simp [hx] at hd

end Verif
