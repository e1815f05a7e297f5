import Verif.Spec.Build
import Verif.Props.Effect
import Verif.Props.History
import Verif.Props.Claims
import Verif.Spec.DemoBridge

/-!
# Builds with and without overflow checks: C160
-/

namespace Verif

open Demo

/-! ### C160 The build does not matter while the sums fit -/

/-- Two builds agree, or one panics where the other goes on since `P` does not hold. -/
def BuildsAgree {α : Type} (P : Prop) (x y : Except Err α) : Prop := x = y ∨ (¬ P ∧ x = .error .panic ∧ ∃ a, y = .ok a)

theorem BuildsAgree.bind {α β : Type} {P : Prop} {p : Except Err α} {f g : α → Except Err β} (h : ∀ a, p = .ok a → BuildsAgree P (f a) (g a)) :
    BuildsAgree P (p >>= f) (p >>= g) := by
  cases p with
  | error e => exact .inl rfl
  | ok a => exact h a rfl

theorem BuildsAgree.sum {c : Cfg} {P : Prop} {β : Type} {m a b : Nat} {f : Nat → β} (h : P → a + b ≤ m) :
    BuildsAgree P (plainAdd (c.checks true) m a b >>= fun n => .ok (f n)) (plainAdd (c.checks false) m a b >>= fun n => .ok (f n)) := by
  unfold plainAdd
  by_cases hs : a + b ≤ m
  · rw [if_pos hs, if_pos hs]; exact .inl rfl
  · rw [if_neg hs, if_neg hs]
    exact .inr ⟨fun hp => hs (h hp), rfl, _, rfl⟩

theorem doUpdate_now {c : Cfg} {s s' : Chain} {a : AccountId} {b : Bond} (h : Teerdays.doUpdate c s a = .ok (b, s')) :
    b.lastUpdated = s.now := by
  unfold Teerdays.doUpdate at h
  simp only [bind, Except.bind] at h
  split at h
  · cases h
  · injection h with h
    injection h with h1 h2
    rw [← h1]; rfl

theorem builds_agree (c : Cfg) (s : Chain) (op : Op) : BuildsAgree (SumFits c s op) (exec (c.checks true) s op) (exec (c.checks false) s op) := by
  cases op with
  | ext o k =>
    cases k with
    | unbond v =>
      refine BuildsAgree.bind (p := ensureSigned o) fun a _ => ?_
      refine BuildsAgree.bind (p := ensure _ _) fun _ _ => ?_
      refine BuildsAgree.bind (p := ensure _ _) fun _ _ => ?_
      refine BuildsAgree.bind (p := Teerdays.doUpdate c s a) fun ⟨b, s1⟩ hb => ?_
      exact BuildsAgree.sum (c := c) (m := c.momentMax) (a := b.lastUpdated) (b := c.unlockPeriod) fun h => by rw [doUpdate_now hb]; exact h
    | unshieldFunds i b v h =>
      refine BuildsAgree.bind (p := ensureSigned o) fun a _ => ?_
      refine BuildsAgree.bind (p := EnclaveBridge.getSovereignEnclaveAndTouchShard s a i s.block) fun ⟨_, _, s1⟩ h1 => ?_
      have he : s1.br.executed = s.br.executed := by
        obtain ⟨_, _, _, _, rfl⟩ := EnclaveBridge.getSovereign_ok.mp h1
        rfl
      dsimp only
      by_cases hn : (s1.br.executed h).isNone = true
      · rw [if_pos hn, if_pos hn]
        refine BuildsAgree.bind (p := EnclaveBridge.doTransfer c s1 i b v) fun s2 _ => ?_
        exact BuildsAgree.sum fun _ => by simp [EnclaveBridge.emit, upd, EnclaveBridge.u64Max]
      · rw [if_neg hn, if_neg hn]
        exact BuildsAgree.sum fun hp => by
          cases hx : s1.br.executed h with
          | none => rw [hx] at hn; simp at hn
          | some n => exact hp n (by rw [← he]; exact hx)
    | claims k =>
      cases k with
      | mintClaim w v x y =>
        refine BuildsAgree.bind (p := ensureRoot o) fun _ _ => ?_
        exact BuildsAgree.sum (c := c) (m := c.balMax) fun h => h
      | _ => exact .inl rfl
    | _ => exact .inl rfl
  | _ => exact .inl rfl

/-- **C160** While the sum fits, an operation has the same result in both builds. -/
theorem C160_same (c : Cfg) (s : Chain) (op : Op) (h : SumFits c s op) : exec (c.checks true) s op = exec (c.checks false) s op := by
  rcases builds_agree c s op with h' | ⟨h', _⟩
  · exact h'
  · exact absurd h h'

/-- A claim is minted. -/
example : exec (Demo.cfg.checks true) Demo.start (.ext .root (.claims (.mintClaim (Arr.fill 20 7) 500 none none))) =
    exec (Demo.cfg.checks false) Demo.start (.ext .root (.claims (.mintClaim (Arr.fill 20 7) 500 none none))) ∧
    (exec (Demo.cfg.checks true) Demo.start (.ext .root (.claims (.mintClaim (Arr.fill 20 7) 500 none none)))).toOption.isSome = true :=
  ⟨C160_same Demo.cfg Demo.start _ (by show _ ≤ _; decide +kernel), by decide +kernel⟩

/-- **C160** The builds differ in one way only: one panics, where the other goes on with a sum that does not fit. -/
theorem C160_difference (c : Cfg) (s : Chain) (op : Op) (h : exec (c.checks true) s op ≠ exec (c.checks false) s op) :
    ¬ SumFits c s op ∧ exec (c.checks true) s op = .error .panic ∧ ∃ s', exec (c.checks false) s op = .ok s' := by
  rcases builds_agree c s op with h' | h'
  · exact absurd h' h
  · exact h'

/-- More is minted than fits. -/
example : exec (Demo.cfg.checks true) Demo.start (.ext .root (.claims (.mintClaim (Arr.fill 20 7) (Demo.cfg.balMax + 1) none none))) ≠
    exec (Demo.cfg.checks false) Demo.start (.ext .root (.claims (.mintClaim (Arr.fill 20 7) (Demo.cfg.balMax + 1) none none))) := fun h =>
  absurd (congrArg (fun x => x.toOption.isSome) h) (by decide +kernel)

theorem runs_same {c : Cfg} {s : Chain} {ops : List Op} (h : ∀ pre op post, ops = pre ++ op :: post → SumFits c (run (c.checks true) s pre) op) :
    run (c.checks true) s ops = run (c.checks false) s ops ∧ accepted (c.checks true) s ops = accepted (c.checks false) s ops := by
  induction ops generalizing s with
  | nil => exact ⟨rfl, rfl⟩
  | cons op ops ih =>
    have h1 : exec (c.checks true) s op = exec (c.checks false) s op := C160_same c s op (h [] op ops rfl)
    have hs : step (c.checks true) s op = step (c.checks false) s op := by unfold step; rw [h1]
    have := ih (s := step (c.checks true) s op) fun pre op' post e => h (op :: pre) op' post (by rw [e]; rfl)
    rw [run_cons, run_cons, ← hs]
    refine ⟨this.1, ?_⟩
    have h2 := this.2
    simp only [accepted, ← h1]
    unfold step at h2
    cases hx : exec (c.checks true) s op with
    | ok s' => rw [hx] at h2; exact congrArg _ h2
    | error e => rw [hx] at h2; exact h2

/-- **C160** While the sums fit, whole histories have the same result and the same successful operations. -/
theorem C160_histories (c : Cfg) (s0 : Chain) (ops : List Op)
    (h : ∀ pre op post, ops = pre ++ op :: post → SumFits c (run (c.checks true) s0 pre) op) :
    run (c.checks true) s0 ops = run (c.checks false) s0 ops ∧ accepted (c.checks true) s0 ops = accepted (c.checks false) s0 ops :=
  runs_same h

/-- Tokens are bonded and unbonded. -/
example : run (Demo.cfg.checks true) Demo.start [.ext (.signed Demo.alice) (.bond 500), .ext (.signed Demo.alice) (.unbond 200)] =
      run (Demo.cfg.checks false) Demo.start [.ext (.signed Demo.alice) (.bond 500), .ext (.signed Demo.alice) (.unbond 200)] ∧
    (accepted (Demo.cfg.checks true) Demo.start
      [.ext (.signed Demo.alice) (.bond 500), .ext (.signed Demo.alice) (.unbond 200)]).length = 2 := by
  refine ⟨(C160_histories Demo.cfg Demo.start _ fun pre op post e => ?_).1, by decide +kernel⟩
  rcases pre with _ | ⟨x, _ | ⟨y, _ | ⟨z, pre⟩⟩⟩
  · cases e; trivial
  · cases e; show _ ≤ _; decide +kernel
  · cases e
  · cases e

/-- There is room for all sums of the rest of a history. -/
structure Room (c : Cfg) (s : Chain) (ops : List Op) : Prop where
  status : StatusOk s
  time : s.now + elapsedOf ops + c.unlockPeriod ≤ c.momentMax
  count : ∀ h n, s.br.executed h = some n → n + ops.length ≤ 2 ^ 64 - 1
  len : ops.length ≤ 2 ^ 64 - 1
  total : s.cl.total + mintsOf ops ≤ c.balMax

theorem Room.fits {c : Cfg} {s : Chain} {op : Op} {ops : List Op} (h : Room c s (op :: ops)) : SumFits c s op := by
  have ht := h.time
  have hc := h.count
  have hm := h.total
  cases op with
  | ext o k =>
    cases k with
    | unbond v => simp only [SumFits]; omega
    | unshieldFunds i b v x => intro n hn; have := hc x n hn; simp only [List.length_cons] at this; omega
    | claims k =>
      cases k with
      | mintClaim w v x y => simp only [SumFits, mintsOf] at *; omega
      | _ => trivial
    | _ => trivial
  | _ => trivial

theorem Room.step {c : Cfg} {s : Chain} {op : Op} {ops : List Op} (h : Room c s (op :: ops)) : Room c (step c s op) ops := by
  have same : ∀ s', StatusOk s' → s'.now + elapsedOf ops ≤ s.now + elapsedOf (op :: ops) →
      (∀ h n, s'.br.executed h = some n → n ≤ 1 ∨ ∃ m, s.br.executed h = some m ∧ n ≤ m + 1) →
      s'.cl.total + mintsOf ops ≤ s.cl.total + mintsOf (op :: ops) → Room c s' ops := by
    intro s' h1 h2 h3 h4
    have ht := h.time
    have hl := h.len
    have hm := h.total
    simp only [List.length_cons] at hl
    refine ⟨h1, by omega, fun x n hn => ?_, by omega, by omega⟩
    rcases h3 x n hn with h3 | ⟨m, hm, h3⟩
    · omega
    · have := h.count x m hm
      simp only [List.length_cons] at this
      omega
  have elapsed : ∀ o k, elapsedOf (.ext o k :: ops) = elapsedOf ops := fun _ _ => rfl
  rcases hx : exec c s op with e | s'
  · rw [step_of_error hx]
    refine same s h.status ?_ (fun x n hn => .inr ⟨n, hn, by omega⟩) ?_
    · cases op <;> simp only [elapsedOf] <;> omega
    · cases op with
      | ext o k =>
        cases k with
        | claims k => cases k <;> simp only [mintsOf] <;> omega
        | _ => simp only [mintsOf]; omega
      | _ => simp only [mintsOf]; omega
  · rw [step_of_ok hx]
    have hs' := statusOk_exec h.status hx
    cases op with
    | ext o k =>
      obtain ⟨-, heff, hnow, -, hsame, -⟩ := (exactly h.status o k s').mp hx
      refine same s' hs' (by rw [hnow, elapsed]; omega) ?_ ?_
      · intro x n hn
        by_cases hc : Place.unshielding x ∈ k.changes c s o
        · cases k with
          | unshieldFunds i b v y =>
            have hxy : x = y := by
              simp only [Call.changes, sending, List.mem_append, List.mem_cons, List.not_mem_nil, or_false, reduceCtorEq, false_or,
                Place.unshielding.injEq] at hc
              rcases hc with h | h
              · exact h
              · split at h <;> simp at h
            subst hxy
            obtain ⟨_, _, _, _, he⟩ := heff
            cases hy : s.br.executed x with
            | none => rw [hy] at he; rw [he.1] at hn; injection hn with hn; exact .inl (by omega)
            | some m =>
              rw [hy] at he
              rw [he.1] at hn
              injection hn with hn
              refine .inr ⟨m, rfl, ?_⟩
              have := Nat.mod_le (m + 1) (2 ^ 64)
              omega
          | claims k => cases k <;> cases o <;> simp [Call.changes, Origin.own] at hc
          | publishHash a b d =>
            cases o <;> simp [Call.changes, Origin.own, ownShard] at hc
            split at hc <;> simp at hc
          | _ => cases o <;> simp [Call.changes, Origin.own, sending] at hc
        · have : s.br.executed x = s'.br.executed x := hsame _ hc
          exact .inr ⟨n, by rw [this]; exact hn, by omega⟩
      · by_cases hc : Place.claims ∈ k.changes c s o
        · cases k with
          | claims k =>
            cases k with
            | mintClaim w v x y =>
              obtain ⟨h1, _⟩ := heff
              have := Nat.mod_le (s.cl.total + v) (c.balMax + 1)
              simp only [mintsOf]
              omega
            | moveClaim a b d => simp only [mintsOf]; rw [heff.1]; omega
            | claim d sig => obtain ⟨_, _, _, _, h2, _⟩ := heff; simp only [mintsOf]; rw [h2.2.1]; omega
            | claimAttest d sig st => obtain ⟨_, _, _, _, h2, _⟩ := heff; simp only [mintsOf]; rw [h2.2.1]; omega
            | attest st => obtain ⟨_, _, _, _, _, _, h2, _⟩ := heff; simp only [mintsOf]; rw [h2.2.1]; omega
          | publishHash a b d =>
            cases o <;> simp [Call.changes, Origin.own, ownShard] at hc
            split at hc <;> simp at hc
          | _ => cases o <;> simp [Call.changes, Origin.own, sending] at hc
        · have hcl : s.cl.claims = s'.cl.claims ∧ s.cl.total = s'.cl.total ∧ _ := hsame _ hc
          have : mintsOf ops ≤ mintsOf (.ext o k :: ops) := by
            cases k with
            | claims k => cases k <;> simp only [mintsOf] <;> omega
            | _ => simp only [mintsOf]; omega
          omega
    | newBlock dt =>
      cases hx
      exact same _ hs' (by simp only [elapsedOf]; omega) (fun x n hn => .inr ⟨n, hn, by omega⟩) (by simp only [mintsOf]; omega)
    | addVesting a v =>
      simp only [exec] at hx
      split at hx
      · cases hx
        exact same _ hs' (by simp only [elapsedOf]; omega) (fun x n hn => .inr ⟨n, hn, by omega⟩) (by simp only [mintsOf]; omega)
      · cases hx
    | _ =>
      cases hx
      exact same _ hs' (by simp only [elapsedOf]; omega) (fun x n hn => .inr ⟨n, hn, by omega⟩) (by simp only [mintsOf]; omega)

theorem Room.everywhere {c : Cfg} {s : Chain} {ops : List Op} (h : Room c s ops) (pre : List Op) (op : Op) (post : List Op)
    (e : ops = pre ++ op :: post) : SumFits c (run c s pre) op := by
  induction pre generalizing s ops with
  | nil => subst e; exact h.fits
  | cons x pre ih => subst e; exact ih h.step rfl

/-- **C160** No history with fewer than 2^64 operations tells the builds apart, if the clock stays in its range, with the unlock period to
spare, and all claims ever minted fit together. -/
theorem C160_indistinguishable (c : Cfg) (s0 : Chain) (ops : List Op) (h0 : FreshBridge s0) (hl : ops.length < 2 ^ 64)
    (ht : s0.now + elapsedOf ops + c.unlockPeriod ≤ c.momentMax) (hm : s0.cl.total + mintsOf ops ≤ c.balMax) :
    run (c.checks true) s0 ops = run (c.checks false) s0 ops ∧ accepted (c.checks true) s0 ops = accepted (c.checks false) s0 ops := by
  have hr : Room (c.checks true) s0 ops :=
    ⟨statusOk_fresh h0, ht, fun h n hn => (by rw [h0.2.2 h] at hn; cases hn), by omega, hm⟩
  exact runs_same hr.everywhere

/-- Time passes, tokens are bonded and unbonded, a claim is minted. -/
example : run (Demo.cfg.checks true) Demo.start [.ext (.signed Demo.alice) (.bond 500), .newBlock 6000, .ext (.signed Demo.alice) (.unbond 200),
        .ext .root (.claims (.mintClaim (Arr.fill 20 7) 500 none none))] =
      run (Demo.cfg.checks false) Demo.start [.ext (.signed Demo.alice) (.bond 500), .newBlock 6000, .ext (.signed Demo.alice) (.unbond 200),
        .ext .root (.claims (.mintClaim (Arr.fill 20 7) 500 none none))] ∧
    (accepted (Demo.cfg.checks true) Demo.start [.ext (.signed Demo.alice) (.bond 500), .newBlock 6000, .ext (.signed Demo.alice) (.unbond 200),
        .ext .root (.claims (.mintClaim (Arr.fill 20 7) 500 none none))]).length = 4 :=
  ⟨(C160_indistinguishable Demo.cfg Demo.start _ ⟨fun _ => rfl, fun _ => rfl, fun _ => rfl⟩ (by decide) (by decide +kernel)
    (by decide +kernel)).1, by decide +kernel⟩

theorem total_same (c : Cfg) (gs : List Claims.GenesisClaim) (t : Nat) :
    (t + (gs.map fun g => g.value).sum ≤ c.balMax →
      gs.foldlM (fun acc g => plainAdd (c.checks true) c.balMax acc g.value) t =
        gs.foldlM (fun acc g => plainAdd (c.checks false) c.balMax acc g.value) t) ∧
    (c.balMax < t + (gs.map fun g => g.value).sum → t ≤ c.balMax →
      gs.foldlM (fun acc g => plainAdd (c.checks true) c.balMax acc g.value) t = .error .panic) := by
  induction gs generalizing t with
  | nil => exact ⟨fun _ => rfl, fun h h' => by simp only [List.map_nil, List.sum_nil] at h; omega⟩
  | cons g gs ih =>
    simp only [List.map_cons, List.sum_cons, List.foldlM_cons]
    by_cases hs : t + g.value ≤ c.balMax
    · have h1 : ∀ b, plainAdd (c.checks b) c.balMax t g.value = .ok (t + g.value) := fun b => if_pos hs
      rw [h1, h1]
      exact ⟨fun h => (ih (t + g.value)).1 (by omega), fun h _ => (ih (t + g.value)).2 (by omega) hs⟩
    · refine ⟨fun h => absurd h (by omega), fun _ _ => ?_⟩
      have h1 : plainAdd (c.checks true) c.balMax t g.value = .error .panic := by
        unfold plainAdd
        rw [if_neg hs]
        rfl
      rw [h1]
      rfl

/-- **C160** Both builds make the same genesis of the claims, if these fit together; otherwise one panics. -/
theorem C160_genesis (c : Cfg) (gs : List Claims.GenesisClaim) (vs : List (EthAddr × VestingInfo)) :
    ((gs.map fun g => g.value).sum ≤ c.balMax → Claims.genesis (c.checks true) gs vs = Claims.genesis (c.checks false) gs vs) ∧
    (c.balMax < (gs.map fun g => g.value).sum → Claims.genesis (c.checks true) gs vs = .error .panic) := by
  have h := total_same c gs 0
  rw [Nat.zero_add] at h
  unfold Claims.genesis
  refine ⟨fun hs => ?_, fun hs => ?_⟩
  · have := h.1 hs
    exact congrArg (fun x => x >>= _) this
  · have := h.2 hs (Nat.zero_le _)
    exact congrArg (fun x => x >>= _) this

/-- Two claims that fit. -/
example : Claims.genesis (Demo.cfg.checks true) [⟨Arr.fill 20 7, 500, none, none⟩, ⟨Arr.fill 20 8, 40, some Demo.bob, some .saft⟩] [] =
    Claims.genesis (Demo.cfg.checks false) [⟨Arr.fill 20 7, 500, none, none⟩, ⟨Arr.fill 20 8, 40, some Demo.bob, some .saft⟩] [] :=
  (C160_genesis Demo.cfg _ _).1 (by decide +kernel)

end Verif
