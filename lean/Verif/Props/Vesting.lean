import Verif.Props.Claims
import Verif.Proofs.Currency
import Verif.Spec.Teerdays

/-!
# C148: claimed tokens are released as their vesting schedule says

A claim may come with a schedule: `locked` tokens, of which `perBlock` become free with every block from `start` on.
-/

namespace Verif

open Verif.Demo EnclaveBridge

/-- Specification: what a schedule still locks at block `n`. -/
def unvested (v : VestingInfo) (n : Nat) : Nat := v.locked - (n - v.start) * v.perBlock

/-- Specification: the operation may give the account a vesting schedule: somebody adds one, or a claim is paid to the
account. -/
def Op.schedulesFor (a : AccountId) : Op → Prop
  | .addVesting x _ => x = a
  | .ext _ (.claims (.claim dest _)) => dest = a
  | .ext _ (.claims (.claimAttest dest _ _)) => dest = a
  | .ext o (.claims (.attest _)) => o = .signed a
  | _ => False

/-! ### How operations affect the vesting of an account -/

/-- What a list of schedules locks at a block. -/
def lockedSum (l : List VestingInfo) (n : Nat) : Nat := (l.map (·.lockedAt n)).sum

theorem lockedAt_mono (v : VestingInfo) {n m : Nat} (h : n ≤ m) : v.lockedAt m ≤ v.lockedAt n := by
  have : (n - v.start) * max 1 v.perBlock ≤ (m - v.start) * max 1 v.perBlock := Nat.mul_le_mul_right _ (by omega)
  simp only [VestingInfo.lockedAt]
  omega

theorem lockedSum_mono (l : List VestingInfo) {n m : Nat} (h : n ≤ m) : lockedSum l m ≤ lockedSum l n := by
  induction l with
  | nil => exact Nat.le_refl _
  | cons v l ih =>
    have := lockedAt_mono v h
    simp only [lockedSum, List.map_cons, List.sum_cons] at ih ⊢
    omega

theorem lockedAt_le_sum {v : VestingInfo} {l : List VestingInfo} (h : v ∈ l) (n : Nat) : v.lockedAt n ≤ lockedSum l n := by
  induction l with
  | nil => simp at h
  | cons w l ih =>
    simp only [lockedSum, List.map_cons, List.sum_cons] at ih ⊢
    rcases List.mem_cons.mp h with rfl | h
    · omega
    · have := ih h; omega

inductive VestEffect (s s' : Chain) (a : AccountId) (op : Op) : Prop where
  | same (hs : s'.bal.schedules a = s.bal.schedules a) (hl : s'.bal.lock .vesting a = s.bal.lock .vesting a)
  | updated (extra : List VestingInfo) (hop : extra ≠ [] → op.schedulesFor a) (hb : s'.block = s.block)
      (hs : s'.bal.schedules a = (s.bal.schedules a ++ extra).filter fun v => v.lockedAt s.block ≠ 0)
      (hl : s'.bal.lock .vesting a = lockedSum (s'.bal.schedules a) s.block)

theorem updateVesting_effect {s s' : Chain} {a x : AccountId} {op : Op} {b : Balances} {extra : List VestingInfo}
    (hb : s'.bal = b.updateVesting s.block x (b.schedules x ++ extra)) (hs : b.schedules = s.bal.schedules)
    (hl : b.lock = s.bal.lock) (hn : s'.block = s.block) (hop : extra ≠ [] → x = a → op.schedulesFor a) :
    VestEffect s s' a op := by
  by_cases hx : a = x
  · subst hx
    exact .updated extra (fun h => hop h rfl) hn (by rw [hb, hs]; simp [Balances.updateVesting])
      (by rw [hb]; simp [Balances.updateVesting, lockedSum])
  · exact .same (by rw [hb, ← hs]; simp [Balances.updateVesting, upd, hx])
      (by rw [hb, ← hl]; simp [Balances.updateVesting, upd, hx])

theorem paid_vestEffect {c : Cfg} {s s' : Chain} {g : EthAddr} {d a : AccountId} {due : Nat} {op : Op}
    (h : Claims.Paid c s g d due s'.bal) (hn : s'.block = s.block) (hop : d = a → op.schedulesFor a) :
    VestEffect s s' a op := by
  unfold Claims.Paid at h
  split at h
  · obtain ⟨_, h⟩ := h
    rcases Balances.addVesting_ok h with ⟨_, e⟩ | ⟨_, _, _, e⟩
    · exact .same (by rw [e]; simp) (by rw [e]; simp)
    · exact updateVesting_effect e (by simp) (by simp) hn fun _ => hop
  · exact .same (by rw [h]; simp) (by rw [h]; simp)

theorem vest_effect {c : Cfg} {s s' : Chain} {op : Op} (h : exec c s op = .ok s') (a : AccountId) :
    VestEffect s s' a op := by
  by_cases hp : Part.currency ∈ op.parts
  · cases op with
    | ext o k =>
      cases k with
      | bond v =>
        obtain ⟨_, _, _, _, rfl⟩ := Teerdays.bond_ok.mp h
        exact .same (by simp) (by simp [Balances.setLock_lock])
      | bondExtra v =>
        obtain ⟨_, _, _, _, _, _, rfl⟩ := Teerdays.bondExtra_ok.mp h
        exact .same (by simp) (by simp [Balances.setLock_lock])
      | withdrawUnbonded =>
        obtain ⟨_, _, _, _, _, _, rfl⟩ := Teerdays.withdrawUnbonded_ok.mp h
        refine .same ?_ ?_ <;> simp only <;> split <;> simp [Balances.setLock_lock, Balances.removeLock]
      | shieldFunds =>
        obtain ⟨b, bb, rfl, hb, rfl⟩ := shieldFunds_ok.mp h
        exact .same (by simp [Balances.transfer_schedules hb]) (by simp [Balances.transfer_lock hb])
      | unshieldFunds x ben am g =>
        obtain ⟨b, e, l, ⟨rfl, h1, h2, _⟩, (⟨h5, bb, n, hb, _, rfl⟩ | ⟨k, n, h5, _, rfl⟩)⟩ := unshieldFunds_ok.mp h
        · exact .same (by simp [Balances.transfer_schedules hb]) (by simp [Balances.transfer_lock hb])
        · exact .same rfl rfl
      | claims k =>
        have hn : s'.block = s.block := (clock_frame h (by cases k <;> simp [Op.parts, Call.parts])).2
        rcases claims_effect h with ⟨_, hop⟩ | ⟨g, dest, due, auth, hc, ht, hpd, _⟩ | ⟨who, v, vest, st, hop, _⟩ |
          ⟨o', old, new, p, hop, _, rfl⟩
        · cases k <;> simp [Op.parts, Call.parts] at hop
        · refine paid_vestEffect hpd hn ?_
          rintro rfl
          rcases auth with ⟨sig, e, _⟩ | ⟨sig, st, e, _⟩ | ⟨st, e, _⟩ <;> rw [e] <;> rfl
        · simp only [Op.ext.injEq, Call.claims.injEq] at hop
          obtain ⟨rfl, rfl⟩ := hop
          simp [Op.parts, Call.parts] at hp
        · exact .same rfl rfl
      | balTransfer dst amount =>
        obtain ⟨src, b, rfl, hb, rfl⟩ := balTransfer_ok.mp h
        exact .same (by simp [Balances.transfer_schedules hb]) (by simp [Balances.transfer_lock hb])
      | _ => simp [Op.parts, Call.parts] at hp
    | mint x n =>
      simp only [exec, Except.ok.injEq] at h; subst h
      exact .same (by simp) (by simp)
    | setOtherLock x n =>
      simp only [exec, Except.ok.injEq] at h; subst h
      exact .same rfl (by simp [upd])
    | slash x n =>
      simp only [exec, Except.ok.injEq] at h; subst h
      exact .same rfl rfl
    | vest x =>
      simp only [exec, Except.ok.injEq] at h; subst h
      exact updateVesting_effect (extra := []) (by rw [List.append_nil]) rfl rfl rfl (fun h => absurd rfl h)
    | addVesting x v =>
      simp only [exec] at h
      split at h
      · rename_i hb
        simp only [Except.ok.injEq] at h; subst h
        rcases Balances.addVesting_ok hb with ⟨_, e⟩ | ⟨_, _, _, e⟩
        · exact .same (by simp [e]) (by simp [e])
        · exact updateVesting_effect (b := s.bal) e rfl rfl rfl fun _ hx => hx
      · simp at h
    | _ => simp [Op.parts] at hp
  · have := exec_frame h _ hp
    simp only [Part.Same] at this
    exact .same (by rw [this]) (by rw [this])

theorem currency_keeps {c : Cfg} {s s' : Chain} {op : Op} {a : AccountId} (h : exec c s op = .ok s')
    (hs : ¬ IsSlash a op) : min (s.bal.free a) (s.bal.lock .vesting a) ≤ s'.bal.free a := by
  have hdep : ∀ x v, s.bal.free a ≤ (s.bal.depositCreating c.ed c.balMax x v).free a :=
    fun x v => Balances.depositCreating_free_le ..
  cases currency_effect h with
  | same hf _ => rw [hf]; omega
  | transfer src dst v ht _ =>
    rcases Balances.transfer_ok ht with ⟨_, e⟩ | ⟨hv, hne, h1, h2, _, _, e⟩
    · rw [e]; omega
    · have hf := Balances.lock_le_frozen s.bal .vesting a
      unfold Balances.reducible at h2
      rw [e]
      simp only [upd]
      by_cases hd : a = dst
      · subst hd; simp only [if_true]; omega
      · simp only [hd, if_false]
        by_cases hsrc : a = src
        · subst hsrc
          simp only [if_true]
          split at h2
          · omega
          · split <;> omega
        · simp only [hsrc, if_false]; omega
  | claim _ _ _ dest due _ _ _ hf => rw [hf]; have := hdep dest due; omega
  | mint x n _ hb => rw [hb]; have := hdep x n; omega
  | slash x n hop hf =>
    have : a ≠ x := by rintro rfl; exact hs ⟨n, hop⟩
    rw [hf]; simp only [upd, this, if_false]; omega

/-- The vesting lock of the account covers what the schedule still locks. -/
def VestHeld (v : VestingInfo) (a : AccountId) (s : Chain) : Prop :=
  (v ∈ s.bal.schedules a ∨ v.lockedAt s.block = 0) ∧ lockedSum (s.bal.schedules a) s.block ≤ s.bal.lock .vesting a

theorem VestHeld.le {v : VestingInfo} {a : AccountId} {s : Chain} (h : VestHeld v a s) :
    v.lockedAt s.block ≤ s.bal.lock .vesting a := by
  rcases h.1 with h1 | h1
  · exact Nat.le_trans (lockedAt_le_sum h1 _) h.2
  · omega

theorem vestHeld_exec {c : Cfg} {v : VestingInfo} {a : AccountId} {s s' : Chain} {op : Op} (h0 : VestHeld v a s)
    (h : exec c s op = .ok s') : VestHeld v a s' := by
  have hn := exec_block_le h
  have hm := lockedAt_mono v hn
  cases vest_effect h a with
  | same hs hl =>
    refine ⟨?_, ?_⟩
    · rw [hs]; rcases h0.1 with h1 | h1
      · exact .inl h1
      · right; omega
    · rw [hs, hl]; exact Nat.le_trans (lockedSum_mono _ hn) h0.2
  | updated extra _ hb hs hl =>
    refine ⟨?_, by rw [hl, hb]; exact Nat.le_refl _⟩
    by_cases hz : v.lockedAt s.block = 0
    · right; omega
    · left
      rcases h0.1 with h1 | h1
      · rw [hs]; simp [h1, hz]
      · exact absurd h1 hz

theorem filter_lockedSum (l : List VestingInfo) (n : Nat) :
    lockedSum (l.filter fun v => v.lockedAt n ≠ 0) n = lockedSum l n := by
  induction l with
  | nil => rfl
  | cons v l ih =>
    simp only [lockedSum, List.map_cons, List.sum_cons] at ih ⊢
    by_cases hz : v.lockedAt n = 0
    · simp only [List.filter_cons, hz, ne_eq, not_true_eq_false, decide_false, Bool.false_eq_true, if_false]
      rw [ih]; omega
    · simp only [List.filter_cons, ne_eq, hz, not_false_eq_true, decide_true, if_true, List.map_cons, List.sum_cons, ih]

/-- State right after a claim with a schedule was paid. -/
theorem vested_payment {c : Cfg} {s s' : Chain} {op : Op} {g : EthAddr} {dest : AccountId} {n : Nat} {v : VestingInfo}
    (h : exec c s op = .ok s') (he : s'.cl.events = .claimed dest g n :: s.cl.events) (hv : s.cl.vesting g = some v) :
    s.bal.schedules dest = [] ∧ s'.block = s.block ∧ (v.locked ≠ 0 → v.perBlock ≠ 0) ∧
    ((v.locked = 0 ∧ s'.bal.schedules dest = [] ∧ s'.bal.lock .vesting dest = s.bal.lock .vesting dest) ∨
      (s'.bal.schedules dest = [v].filter (fun v => v.lockedAt s.block ≠ 0) ∧
        s'.bal.lock .vesting dest = v.lockedAt s.block)) := by
  rcases claims_effect h with ⟨hcl, _⟩ | ⟨g', dest', due, auth, hc, ht, hpd, _, _, _, _, events⟩ |
    ⟨who, w, vest, st, hop, _, _, _, _, _, events⟩ | ⟨o', old, new, p, hop, _, rfl⟩
  · rw [hcl] at he; simp at he
  · rw [he, List.cons.injEq] at events
    simp only [ClEvent.claimed.injEq, and_true] at events
    obtain ⟨rfl, rfl, rfl⟩ := events
    have hn : s'.block = s.block := by
      rcases auth with ⟨sig, rfl, _⟩ | ⟨sig, st, rfl, _⟩ | ⟨st, rfl, _⟩ <;>
        exact (clock_frame h (by simp [Op.parts, Call.parts])).2
    simp only [Claims.Paid, hv] at hpd
    obtain ⟨hs, ha⟩ := hpd
    refine ⟨hs, hn, ?_⟩
    rcases Balances.addVesting_ok ha with ⟨hz, e⟩ | ⟨_, hpb, _, e⟩
    · exact ⟨fun hx => absurd hz hx, .inl ⟨hz, by rw [e]; simp [hs], by rw [e]; simp⟩⟩
    · refine ⟨fun _ => hpb, .inr ⟨by rw [e]; simp [Balances.updateVesting, hs], ?_⟩⟩
      have := filter_lockedSum [v] s.block
      simp only [lockedSum, List.map_cons, List.map_nil, List.sum_cons, List.sum_nil, Nat.add_zero] at this
      rw [e]
      simpa [Balances.updateVesting, hs] using this
  · rw [events] at he; simp at he
  · simp at he

theorem lockedAt_eq_unvested {v : VestingInfo} (h : v.locked ≠ 0 → v.perBlock ≠ 0) (n : Nat) :
    v.lockedAt n = unvested v n := by
  simp only [VestingInfo.lockedAt, unvested]
  by_cases hl : v.locked = 0
  · omega
  · have := h hl
    rw [show max 1 v.perBlock = v.perBlock by omega]

/-- C148: after a claim with a vesting schedule was paid to an account, the account can never spend what the schedule
still locks: whatever happens afterwards, the vesting lock is at least the unvested amount, and unless the account is
slashed its balance stays at least the smallest of the unvested amount and what it had after the payment. The hypotheses
are met by the example below. -/
theorem C148_held (c : Cfg) (s s' : Chain) (op : Op) (g : EthAddr) (dest : AccountId) (n : Nat) (v : VestingInfo)
    (ops : List Op) (h : exec c s op = .ok s') (he : s'.cl.events = .claimed dest g n :: s.cl.events)
    (hv : s.cl.vesting g = some v) :
    unvested v (run c s' ops).block ≤ (run c s' ops).bal.lock .vesting dest ∧
    ((∀ o ∈ ops, ¬ IsSlash dest o) →
      min (s'.bal.free dest) (unvested v (run c s' ops).block) ≤ (run c s' ops).bal.free dest) := by
  obtain ⟨_, hb, hp, hcase⟩ := vested_payment h he hv
  simp only [← lockedAt_eq_unvested hp]
  have h0 : VestHeld v dest s' := by
    unfold VestHeld
    rcases hcase with ⟨hz, hs, _⟩ | ⟨hs, hl⟩
    · exact ⟨.inr (by simp [VestingInfo.lockedAt, hz]), by simp [hs, lockedSum]⟩
    · rw [hs, hl, hb, filter_lockedSum]
      refine ⟨?_, by simp [lockedSum]⟩
      by_cases hz : v.lockedAt s.block = 0
      · exact .inr hz
      · exact .inl (by simp [hz])
  refine ⟨(run_invariant (c := c) (fun _ _ _ h1 h2 => vestHeld_exec h1 h2) h0 ops).le, fun hS => ?_⟩
  have := run_invariant' (c := c) (Q := fun o => ¬ IsSlash dest o)
    (P := fun t => VestHeld v dest t ∧ min (s'.bal.free dest) (v.lockedAt t.block) ≤ t.bal.free dest) ?_ ⟨h0, by omega⟩ ops hS
  · exact this.2
  · rintro t t' o hq ⟨ht, hf⟩ hx
    refine ⟨vestHeld_exec ht hx, ?_⟩
    have h1 := currency_keeps hx hq
    have h2 := ht.le
    have h3 := lockedAt_mono v (exec_block_le hx)
    omega

/-- C148: and the schedule does release the tokens: as long as the account gets no further schedule, calling `vest` for
it at any later block leaves exactly the unvested amount under the vesting lock. The hypotheses are met by the example
below. -/
theorem C148_released (c : Cfg) (s s' : Chain) (op : Op) (g : EthAddr) (dest : AccountId) (n : Nat) (v : VestingInfo)
    (ops : List Op) (h : exec c s op = .ok s') (he : s'.cl.events = .claimed dest g n :: s.cl.events)
    (hv : s.cl.vesting g = some v) (hops : ∀ o ∈ ops, ¬ o.schedulesFor dest) :
    (run c s' (ops ++ [.vest dest])).bal.lock .vesting dest = unvested v (run c s' ops).block := by
  obtain ⟨_, hb, hp, hcase⟩ := vested_payment h he hv
  rw [← lockedAt_eq_unvested hp, run_snoc]
  have key := run_invariant' (c := c) (Q := fun o => ¬ o.schedulesFor dest)
    (P := fun t => t.bal.schedules dest = [v] ∨ (t.bal.schedules dest = [] ∧ v.lockedAt t.block = 0)) (s := s') ?_ ?_ ops hops
  · generalize run c s' ops = t at key
    have e : step c t (.vest dest) = { t with bal := t.bal.updateVesting t.block dest (t.bal.schedules dest) } := rfl
    have hf := filter_lockedSum (t.bal.schedules dest) t.block
    simp only [lockedSum] at hf
    rw [e]
    simp only [Balances.updateVesting, upd_same]
    rw [hf]
    rcases key with h1 | ⟨h1, h2⟩ <;> simp [h1]
    exact h2.symm
  · intro t t' o hq ht hx
    have hm := lockedAt_mono v (exec_block_le hx)
    cases vest_effect hx dest with
    | same hs _ =>
      rw [hs]
      rcases ht with h1 | ⟨h1, h2⟩
      · exact .inl h1
      · exact .inr ⟨h1, by omega⟩
    | updated extra hop hb' hs _ =>
      have hx : extra = [] := Classical.byContradiction fun hne => hq (hop hne)
      rw [hx, List.append_nil] at hs
      rw [hs]
      rcases ht with h1 | ⟨h1, h2⟩
      · rw [h1]
        by_cases hz : v.lockedAt t.block = 0
        · exact .inr ⟨by simp [hz], by omega⟩
        · exact .inl (by simp [hz])
      · exact .inr ⟨by simp [h1], by omega⟩
  · rcases hcase with ⟨hz, hs, _⟩ | ⟨hs, hl⟩
    · exact .inr ⟨hs, by simp [VestingInfo.lockedAt, hz]⟩
    · rw [hs]
      by_cases hz : v.lockedAt s.block = 0
      · exact .inr ⟨by simp [hz], by rw [hb]; exact hz⟩
      · exact .inl (by simp [hz])

/-- C148: in particular nothing is locked any more once `perBlock` × blocks since `start` reaches the amount. -/
theorem C148_ends (c : Cfg) (s s' : Chain) (op : Op) (g : EthAddr) (dest : AccountId) (n : Nat) (v : VestingInfo)
    (ops : List Op) (h : exec c s op = .ok s') (he : s'.cl.events = .claimed dest g n :: s.cl.events)
    (hv : s.cl.vesting g = some v) (hops : ∀ o ∈ ops, ¬ o.schedulesFor dest)
    (hend : v.locked ≤ ((run c s' ops).block - v.start) * v.perBlock) :
    (run c s' (ops ++ [.vest dest])).bal.lock .vesting dest = 0 := by
  rw [C148_released c s s' op g dest n v ops h he hv hops, unvested]
  omega

/-- A claim of 100 is paid in block 7; 40 of it are locked and become free by 2 per block from block 10 on. -/
def beforeVested : Chain := run cfg start [mintOp ethA 100 (some ⟨40, 2, 10⟩) none]
def afterVested : Chain := step cfg beforeVested (claimOp carol)
def later (k : Nat) : List Op := List.replicate k (.newBlock 6)

example : exec cfg beforeVested (claimOp carol) = .ok afterVested ∧
    afterVested.cl.events = .claimed carol ethA 100 :: beforeVested.cl.events ∧
    beforeVested.cl.vesting ethA = some ⟨40, 2, 10⟩ ∧ afterVested.bal.lock .vesting carol = 40 ∧
    (∀ o ∈ later 8 ++ [.ext (.signed carol) (.balTransfer bob 60), .ext (.signed carol) (.balTransfer bob 1)],
      ¬ IsSlash carol o) ∧
    (run cfg afterVested (later 8 ++ [.ext (.signed carol) (.balTransfer bob 60),
      .ext (.signed carol) (.balTransfer bob 1)])).bal.free carol = 40 :=
  ⟨exec_ok_of_isOk (by decide +kernel), by decide +kernel, by decide +kernel, by decide +kernel, by decide +kernel, by decide +kernel⟩

example : (∀ o ∈ later 8, ¬ o.schedulesFor carol) ∧ unvested ⟨40, 2, 10⟩ (run cfg afterVested (later 8)).block = 30 ∧
    (run cfg afterVested (later 8 ++ [.vest carol])).bal.lock .vesting carol = 30 :=
  ⟨by simp [later, Op.schedulesFor], by decide +kernel, by decide +kernel⟩

example : (40 : Nat) ≤ ((run cfg afterVested (later 23)).block - 10) * 2 ∧
    (run cfg afterVested (later 23 ++ [.vest carol, .ext (.signed carol) (.balTransfer bob 100)])).bal.free carol = 0 :=
  ⟨by decide +kernel, by decide +kernel⟩

end Verif
