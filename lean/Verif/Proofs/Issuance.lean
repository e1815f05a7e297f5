import Verif.Proofs.Currency
import Verif.Spec.Money

/-!
# Sums of balances and total issuance
-/

namespace Verif

theorem sumFree_cons (b : Balances) (a : AccountId) (l : List AccountId) :
    sumFree b (a :: l) = b.free a + sumFree b l := by simp [sumFree]

theorem sumFree_congr {b b' : Balances} {l : List AccountId} (h : ∀ a ∈ l, b.free a = b'.free a) :
    sumFree b l = sumFree b' l := by
  induction l with
  | nil => rfl
  | cons x l ih =>
    rw [sumFree_cons, sumFree_cons, ih fun a ha => h a (List.mem_cons_of_mem _ ha), h x (by simp)]

/-- A change at one account. -/
theorem sumFree_change {b b' : Balances} {l : List AccountId} {a : AccountId} (hl : l.Nodup) (ha : a ∈ l)
    (h : ∀ x, x ≠ a → b'.free x = b.free x) : sumFree b' l + b.free a = sumFree b l + b'.free a := by
  induction l with
  | nil => simp at ha
  | cons x l ih =>
    rw [List.nodup_cons] at hl
    rw [sumFree_cons, sumFree_cons]
    by_cases hx : a = x
    · subst hx
      have := sumFree_congr (b := b') (b' := b) (l := l) fun y hy => h y fun e => hl.1 (e ▸ hy)
      omega
    · have := ih hl.2 (by simpa [hx] using ha)
      have := h x (Ne.symm hx)
      omega

/-- Adding an account to a list. -/
theorem extend (l : List AccountId) (hl : l.Nodup) (a : AccountId) :
    ∃ l', l'.Nodup ∧ a ∈ l' ∧ (∀ x ∈ l, x ∈ l') ∧ ∀ b : Balances, sumFree b l ≤ sumFree b l' ∧
      ((a ∉ l → b.free a = 0) → sumFree b l' = sumFree b l) := by
  by_cases h : a ∈ l
  · exact ⟨l, hl, h, fun _ h => h, fun b => ⟨Nat.le_refl _, fun _ => rfl⟩⟩
  · refine ⟨a :: l, List.nodup_cons.mpr ⟨h, hl⟩, by simp, fun x hx => List.mem_cons_of_mem _ hx, fun b => ?_⟩
    rw [sumFree_cons]
    exact ⟨by omega, fun h0 => by have := h0 h; omega⟩

/-- What every operation does to sums and issuance: there are at most two accounts such that for all lists containing
them, sum and issuance change by the same amount. -/
theorem sum_effect {c : Cfg} {s s' : Chain} {op : Op} (h : exec c s op = .ok s') :
    ∃ a b : AccountId, (∀ x, x ≠ a → x ≠ b → s'.bal.free x = s.bal.free x) ∧
      ∃ plus minus, s'.bal.issuance = s.bal.issuance + plus - minus ∧
        ∀ l : List AccountId, l.Nodup → a ∈ l → b ∈ l → sumFree s'.bal l + minus = sumFree s.bal l + plus := by
  have dep : ∀ (who : AccountId) (v : Nat), s'.bal.free = (s.bal.depositCreating c.ed c.balMax who v).free →
      s'.bal.issuance = (s.bal.depositCreating c.ed c.balMax who v).issuance →
      ∃ a b : AccountId, (∀ x, x ≠ a → x ≠ b → s'.bal.free x = s.bal.free x) ∧
      ∃ plus minus, s'.bal.issuance = s.bal.issuance + plus - minus ∧
        ∀ l : List AccountId, l.Nodup → a ∈ l → b ∈ l → sumFree s'.bal l + minus = sumFree s.bal l + plus := by
    intro who v hf hi
    unfold Balances.depositCreating at hf hi
    split at hf
    · rename_i hc
      rw [if_pos hc] at hi
      exact ⟨who, who, fun x _ _ => by rw [hf], 0, 0, by omega, fun l _ _ _ => by
        rw [sumFree_congr (b := s'.bal) (b' := s.bal) fun a _ => by rw [hf]]⟩
    · rename_i hc
      rw [if_neg hc] at hi
      refine ⟨who, who, fun x h _ => by rw [hf]; simp [h], v, 0, by simpa using hi, fun l hl ha _ => ?_⟩
      have := sumFree_change (b := s.bal) (b' := s'.bal) hl ha (fun x hx => by rw [hf]; simp [hx])
      rw [hf] at this
      simp only [upd_same] at this
      omega
  cases currency_effect h with
  | same hf hi =>
    refine ⟨Arr.zero 32, Arr.zero 32, fun x _ _ => by rw [hf], 0, 0, by omega, fun l _ _ _ => ?_⟩
    rw [sumFree_congr (b := s'.bal) (b' := s.bal) fun a _ => by rw [hf]]
  | transfer src dst v ht hop =>
    rcases Balances.transfer_ok ht with ⟨_, e⟩ | ⟨hv, hne, h1, h2, _, _, e⟩
    · refine ⟨src, dst, fun x _ _ => by rw [e], 0, 0, by rw [e]; omega, fun l _ _ _ => by rw [e]⟩
    · refine ⟨src, dst, fun x hs hd => by rw [e]; simp [hs, hd], 0,
        (s.bal.free src - v) - (if s.bal.free src - v < c.ed then 0 else s.bal.free src - v), by rw [e]; simp, ?_⟩
      intro l hl ha hb
      obtain ⟨left, hleft⟩ : ∃ n, n = if s.bal.free src - v < c.ed then 0 else s.bal.free src - v := ⟨_, rfl⟩
      simp only [← hleft] at e ⊢
      have e1 := sumFree_change (b := s.bal) (b' := { s.bal with free := upd s.bal.free src left }) hl ha
        (fun x hx => by simp [hx])
      have e2 := sumFree_change (b := { s.bal with free := upd s.bal.free src left }) (b' := s'.bal) hl hb
        (fun x hx => by rw [e]; simp [hx])
      simp only [upd_same] at e1
      simp only [upd_ne _ _ (Ne.symm hne)] at e2
      have e3 : s'.bal.free dst = s.bal.free dst + v := by rw [e]; simp
      rw [e3] at e2
      split at hleft <;> omega
  | claim k o g dest due hop hc ht hf hi => exact dep dest due hf hi
  | mint a n hop hb => exact dep a n (by rw [hb]) (by rw [hb])
  | slash a n hop hf hi =>
    refine ⟨a, a, fun x h _ => by rw [hf]; simp [h], 0, min n (s.bal.free a), by simpa using hi, fun l hl ha _ => ?_⟩
    have := sumFree_change (b := s.bal) (b' := s'.bal) hl ha (fun x hx => by rw [hf]; simp [hx])
    rw [hf] at this
    simp only [upd_same] at this
    omega

theorem moneyCovered_exec {c : Cfg} {s s' : Chain} {op : Op} (hs : Covered s) (h : exec c s op = .ok s') : Covered s' := by
  intro l hl
  obtain ⟨a, b, _, plus, minus, hi, hsum⟩ := sum_effect h
  obtain ⟨l1, hl1, ha, _, h1⟩ := extend l hl a
  obtain ⟨l2, hl2, hb, hsub, h2⟩ := extend l1 hl1 b
  have := hsum l2 hl2 (hsub a ha) hb
  have := hs l2 hl2
  have := (h1 s'.bal).1
  have := (h2 s'.bal).1
  omega

theorem balanced_exec {c : Cfg} {s s' : Chain} {op : Op} (hs : Balanced s) (h : exec c s op = .ok s') : Balanced s' := by
  obtain ⟨a, b, hsame, plus, minus, hi, hsum⟩ := sum_effect h
  obtain ⟨⟨l0, hl0⟩, hs⟩ := hs
  refine ⟨⟨a :: b :: l0, fun x hx => ?_⟩, fun l hl hcov => ?_⟩
  · by_cases h1 : x = a
    · simp [h1]
    · by_cases h2 : x = b
      · simp [h2]
      · rw [hsame x h1 h2] at hx
        simp [hl0 x hx]
  · obtain ⟨l1, hl1, ha, hsub1, h1⟩ := extend l hl a
    obtain ⟨l2, hl2, hb, hsub, h2⟩ := extend l1 hl1 b
    have e1 := hsum l2 hl2 (hsub a ha) hb
    have e2 := hs l2 hl2 (fun x hx => by
      by_cases h1 : x = a
      · rw [h1]; exact hsub a ha
      · by_cases h2 : x = b
        · rw [h2]; exact hb
        · rw [← hsame x h1 h2] at hx
          exact hsub x (hsub1 x (hcov x hx)))
    have hz : ∀ x, x ∉ l → s'.bal.free x = 0 := fun x hx => Decidable.byContradiction fun hn => hx (hcov x hn)
    have e3 := (h1 s'.bal).2 (hz a)
    have e4 := (h2 s'.bal).2 (fun hn => hz b fun hm => hn (hsub1 b hm))
    omega

end Verif
