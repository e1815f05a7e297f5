import Verif.Proofs.Currency
import Verif.Proofs.ClaimsInv
import Verif.Proofs.Issuance
import Verif.Spec.Ledger

/-!
# Effects of all operations on one account
-/

namespace Verif

open EnclaveBridge

/-- A transfer, seen from one account. -/
theorem transfer_account {ed balMax : Nat} {b b' : Balances} {src dst : AccountId} {v : Nat}
    (h : b.transfer ed balMax src dst v = .ok b') (a : AccountId) :
    b'.free a + (if src = a then v else 0) ≤ b.free a + (if dst = a then v else 0) ∧
    b.free a + (if dst = a then v else 0) ≤ b'.free a + (if src = a then v else 0) +
      (if src = a ∧ v ≠ 0 then ed else 0) := by
  rcases Balances.transfer_ok h with ⟨h0, rfl⟩ | ⟨hv, hne, h1, _, _, _, rfl⟩
  · rcases h0 with rfl | rfl
    · simp
    · split <;> omega
  · simp only [upd_apply]
    by_cases hd : a = dst
    · subst hd
      rw [if_neg (show ¬ src = a from hne)]
      simp
    · by_cases hs : a = src
      · subst hs
        have hd' : ¬ dst = a := fun h => hd h.symm
        simp only [hd, hd', if_false, if_true, true_and, hv, ne_eq, not_false_eq_true]
        split <;> omega
      · have hd' : ¬ dst = a := fun h => hd h.symm
        have hs' : ¬ src = a := fun h => hs h.symm
        simp [hd, hs, hd', hs']

/-- A deposit, seen from one account. -/
theorem deposit_account (ed balMax : Nat) (b : Balances) (who a : AccountId) (v : Nat) :
    (b.depositCreating ed balMax who v).free a ≤ b.free a + (if who = a then v else 0) ∧
    (who = a → b.free a + v ≤ balMax → b.issuance + v ≤ balMax →
      b.free a + v ≤ (b.depositCreating ed balMax who v).free a + (if v ≠ 0 then ed else 0)) ∧
    (who ≠ a → (b.depositCreating ed balMax who v).free a = b.free a) := by
  unfold Balances.depositCreating
  refine ⟨?_, ?_, ?_⟩
  · split
    · omega
    · simp only [upd_apply]
      by_cases h : a = who
      · subst h; simp
      · rw [if_neg h]; omega
  · rintro rfl h1 h2
    split
    · rename_i h
      rcases h with h | ⟨h, h'⟩ | h | h
      · simp [h]
      · split <;> omega
      · omega
      · omega
    · simp only [upd_apply, if_true]; omega
  · intro h
    split
    · rfl
    · have h' : ¬ a = who := fun e => h e.symm
      simp [upd_apply, h']

/-- One accepted operation, seen from one account. -/
theorem account_effect {c : Cfg} {s s' : Chain} {op : Op} (h : exec c s op = .ok s') (a : AccountId) :
    s'.bal.free a + debited a (s, op) ≤ s.bal.free a + credited c a (s, op) ∧
    (s.bal.free a ≤ s.bal.issuance → s.bal.issuance + credited c a (s, op) ≤ c.balMax →
      s.bal.free a + credited c a (s, op) ≤ s'.bal.free a + debited a (s, op) +
        (if credited c a (s, op) ≠ 0 ∨ debited a (s, op) ≠ 0 then c.ed else 0)) := by
  have hstep : step c s op = s' := step_of_ok h
  have same : s'.bal.free = s.bal.free → credited c a (s, op) = 0 → debited a (s, op) = 0 →
      s'.bal.free a + debited a (s, op) ≤ s.bal.free a + credited c a (s, op) ∧
      (s.bal.free a ≤ s.bal.issuance → s.bal.issuance + credited c a (s, op) ≤ c.balMax →
        s.bal.free a + credited c a (s, op) ≤ s'.bal.free a + debited a (s, op) +
          (if credited c a (s, op) ≠ 0 ∨ debited a (s, op) ≠ 0 then c.ed else 0)) := by
    intro h1 h2 h3
    rw [h1, h2, h3]
    exact ⟨Nat.le_refl _, fun _ _ => Nat.le_add_right _ _⟩
  have frame : Part.currency ∉ op.parts → s'.bal.free = s.bal.free := fun hp => by
    have : s'.bal = s.bal := exec_frame h .currency hp
    rw [this]
  have moved : ∀ {src dst : AccountId} {v : Nat}, s.bal.transfer c.ed c.balMax src dst v = .ok s'.bal →
      credited c a (s, op) = (if dst = a then v else 0) → debited a (s, op) = (if src = a then v else 0) →
      s'.bal.free a + debited a (s, op) ≤ s.bal.free a + credited c a (s, op) ∧
      (s.bal.free a ≤ s.bal.issuance → s.bal.issuance + credited c a (s, op) ≤ c.balMax →
        s.bal.free a + credited c a (s, op) ≤ s'.bal.free a + debited a (s, op) +
          (if credited c a (s, op) ≠ 0 ∨ debited a (s, op) ≠ 0 then c.ed else 0)) := by
    intro src dst v ht h1 h2
    obtain ⟨e1, e2⟩ := transfer_account ht a
    rw [← h1, ← h2] at e1 e2
    refine ⟨e1, fun _ _ => Nat.le_trans e2 (Nat.add_le_add_left ?_ _)⟩
    by_cases hc : src = a ∧ v ≠ 0
    · rw [if_pos hc, if_pos (Or.inr (by rw [h2, if_pos hc.1]; exact hc.2))]
      exact Nat.le_refl _
    · rw [if_neg hc]; exact Nat.zero_le _
  have deposit : ∀ {who : AccountId} {v : Nat}, s'.bal.free = (s.bal.depositCreating c.ed c.balMax who v).free →
      credited c a (s, op) = (if who = a then v else 0) → debited a (s, op) = 0 →
      s'.bal.free a + debited a (s, op) ≤ s.bal.free a + credited c a (s, op) ∧
      (s.bal.free a ≤ s.bal.issuance → s.bal.issuance + credited c a (s, op) ≤ c.balMax →
        s.bal.free a + credited c a (s, op) ≤ s'.bal.free a + debited a (s, op) +
          (if credited c a (s, op) ≠ 0 ∨ debited a (s, op) ≠ 0 then c.ed else 0)) := by
    intro who v hf h1 h2
    obtain ⟨e1, e2, e3⟩ := deposit_account c.ed c.balMax s.bal who a v
    rw [h2, hf, h1]
    refine ⟨e1, fun k1 k2 => ?_⟩
    by_cases hw : who = a
    · simp only [if_pos hw] at k2 ⊢
      have := e2 hw (by omega) k2
      simpa using this
    · rw [e3 hw]; simp [hw]
  cases op with
  | ext o k =>
    cases k with
    | shieldFunds x inc v =>
      obtain ⟨b, bb, rfl, hb, rfl⟩ := shieldFunds_ok.mp h
      exact moved hb rfl rfl
    | unshieldFunds x ben am g =>
      obtain ⟨b, e, l, ⟨rfl, h1, h2, _⟩, (⟨h5, bb, n, hb, _, rfl⟩ | ⟨k, n, h5, _, rfl⟩)⟩ := unshieldFunds_ok.mp h
      · exact moved hb (by simp [credited, h5]) (by simp [debited, h5])
      · exact same rfl (by simp [credited, h5]) (by simp [debited, h5])
    | balTransfer dst v =>
      obtain ⟨b, bb, rfl, hb, rfl⟩ := balTransfer_ok.mp h
      exact moved hb rfl rfl
    | claims k =>
      cases claims_effect h with
      | same h1 hop => cases k <;> simp [Op.parts, Call.parts] at hop
      | paid g dest due auth hc ht hp total claims vesting signing events =>
        have han : announced c (s, .ext o (.claims k)) = due := by
          simp only [announced, hstep, events, ClEvent.amount]
        refine deposit (who := dest) (v := due) (paid_cases hp).1 ?_ ?_
        · rcases auth with ⟨sig, hop, _⟩ | ⟨sig, st, hop, _⟩ | ⟨st, hop, _⟩ <;>
          · simp only [Op.ext.injEq, Call.claims.injEq] at hop
            obtain ⟨rfl, rfl⟩ := hop
            simp only [credited, han]
        · rcases auth with ⟨sig, hop, _⟩ | ⟨sig, st, hop, _⟩ | ⟨st, hop, _⟩ <;>
          · simp only [Op.ext.injEq, Call.claims.injEq] at hop
            obtain ⟨rfl, rfl⟩ := hop
            rfl
      | mint who v vest st hop =>
        simp only [Op.ext.injEq, Call.claims.injEq] at hop
        obtain ⟨rfl, rfl⟩ := hop
        exact same (frame (by simp [Op.parts, Call.parts])) rfl rfl
      | move o' old new p hop auth hs =>
        simp only [Op.ext.injEq, Call.claims.injEq] at hop
        obtain ⟨rfl, rfl⟩ := hop
        exact same (frame (by simp [Op.parts, Call.parts])) (by cases o <;> rfl) (by cases o <;> rfl)
    | bond v => obtain ⟨_, _, _, _, rfl⟩ := Teerdays.bond_ok.mp h; exact same (by simp) (by cases o <;> rfl) (by cases o <;> rfl)
    | bondExtra v => obtain ⟨_, _, _, _, _, _, rfl⟩ := Teerdays.bondExtra_ok.mp h; exact same (by simp) (by cases o <;> rfl) (by cases o <;> rfl)
    | withdrawUnbonded =>
      obtain ⟨_, _, _, _, _, _, rfl⟩ := Teerdays.withdrawUnbonded_ok.mp h
      exact same (by simp only; split <;> simp) (by cases o <;> rfl) (by cases o <;> rfl)
    | _ => exact same (frame (by simp [Op.parts, Call.parts])) (by cases o <;> rfl) (by cases o <;> rfl)
  | mint x n =>
    simp only [exec, Except.ok.injEq] at h
    subst h
    exact deposit (who := x) (v := n) rfl rfl rfl
  | slash x n =>
    simp only [exec, Except.ok.injEq] at h
    subst h
    simp only [credited, debited, upd_apply]
    by_cases hx : a = x
    · subst hx; simp only [if_true]; refine ⟨by omega, fun _ _ => by omega⟩
    · have hx' : ¬ x = a := fun e => hx e.symm
      simp [hx, hx']
  | setOtherLock x n =>
    simp only [exec, Except.ok.injEq] at h
    subst h
    exact same rfl rfl rfl
  | vest x =>
    simp only [exec, Except.ok.injEq] at h
    subst h
    exact same rfl rfl rfl
  | addVesting x v =>
    simp only [exec] at h
    split at h
    · rename_i b hb
      simp only [Except.ok.injEq] at h
      subst h
      exact same (Balances.addVesting_free hb).1 rfl rfl
    · simp at h
  | _ => exact same (frame (by simp [Op.parts])) rfl rfl

end Verif
