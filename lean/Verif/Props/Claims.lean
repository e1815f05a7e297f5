import Verif.Proofs.ClaimsInv
import Verif.Proofs.BridgeInv
import Verif.Spec.Demo

/-!
# Properties of claims: C47 - C57, C80 - C82
-/

namespace Verif

open Demo Claims

/-! ### The demo -/

/-- The Ethereum address that every signature recovers to under the demo configuration. -/
def ethA : EthAddr := Arr.fill 20 64
def ethB : EthAddr := Arr.fill 20 65
def ethC : EthAddr := Arr.fill 20 66
def anySig : EthSig := Arr.zero 65

/-- Root mints a claim. -/
def mintOp (g : EthAddr) (v : Nat) (vest : Option VestingInfo) (st : Option StatementKind) : Op :=
  .ext .root (.claims (.mintClaim g v vest st))
/-- Somebody submits the claim of address A for an account. -/
def claimOp (dest : AccountId) : Op := .ext .none (.claims (.claim dest anySig))
def attestOp (a : AccountId) (k : StatementKind) : Op := .ext (.signed a) (.claims (.attest k.statement))
def claimAttestOp (dest : AccountId) (k : StatementKind) : Op :=
  .ext .none (.claims (.claimAttest dest anySig k.statement))
def moveOp (o : Origin) (old new : EthAddr) (p : Option AccountId) : Op := .ext o (.claims (.moveClaim old new p))

/-- Two genesis claims; the one of B must be attested by Bob. -/
def demoGenesis : List GenesisClaim :=
  [⟨ethA, 100, none, none⟩, ⟨ethB, 200, some bob, some .saft⟩]

/-- The chain after genesis. -/
def claimsStart : Chain :=
  match Claims.genesis cfg demoGenesis [] with
  | .ok cl => { start with cl := cl }
  | .error _ => start

/-- A mint, a claim, a failing second claim, an attest, a move. -/
def claimsHistory : List Op :=
  [mintOp ethC 50 (some ⟨40, 2, 10⟩) none, claimOp carol, claimOp alice, attestOp bob .regular, attestOp bob .saft,
   moveOp (.custom 1) ethC ethA none]

theorem claimsStart_fresh : claimsStart.cl.events = [] := rfl

/-! ### C47 Claims accounting is conserved -/

/-- C47: the recorded total plus everything paid out is the initial total plus everything minted, provided this sum
fits into the balance type or the runtime is built with overflow checks. -/
theorem C47_conserved (c : Cfg) (s0 : Chain) (ops : List Op) (h0 : s0.cl.events = [])
    (hf : c.overflowChecks = true ∨ Fits c s0.cl.total (accepted c s0 ops)) :
    (run c s0 ops).cl.total + paidOut (run c s0 ops) = s0.cl.total + mintedIn (accepted c s0 ops) :=
  conserved_run c s0 ops h0 hf

example : (run cfg claimsStart claimsHistory).cl.total + paidOut (run cfg claimsStart claimsHistory) =
    claimsStart.cl.total + mintedIn (accepted cfg claimsStart claimsHistory) :=
  C47_conserved cfg claimsStart claimsHistory rfl (.inr (by unfold Fits; decide +kernel))

/-- C47: in any case the equation holds modulo the size of the balance type. -/
theorem C47_modulo (c : Cfg) (s0 : Chain) (ops : List Op) (h0 : s0.cl.events = []) :
    ((run c s0 ops).cl.total + paidOut (run c s0 ops)) % (c.balMax + 1) =
      (s0.cl.total + mintedIn (accepted c s0 ops)) % (c.balMax + 1) := by
  refine history_induction (c := c) (s0 := s0) (P := fun s acc =>
    (s.cl.total + paidOut s) % (c.balMax + 1) = (s0.cl.total + mintedIn acc) % (c.balMax + 1)) ?_ ?_ ops
  · simp [paidOut, h0, mintedIn]
  · intro s s' op acc ih hx
    rw [mintedIn_snoc]
    rcases claims_effect hx with ⟨h, hop⟩ | ⟨g, dest, due, auth, hc, ht, hp, total, claims, _, _, events⟩ |
      ⟨who, v, vest, st, hop, total, claims, _, _, _, events⟩ | ⟨o, old, new, p, hop, auth, rfl⟩
    · have hm : op.minted = 0 := by
        cases op with
        | ext o k =>
          cases k with
          | claims k => cases k <;> simp [Op.parts, Call.parts] at hop
          | _ => rfl
        | _ => rfl
      simpa only [paidOut, h, hm, Nat.add_zero] using ih
    · have hm : op.minted = 0 := by
        rcases auth with ⟨_, rfl, _⟩ | ⟨_, _, rfl, _⟩ | ⟨_, rfl, _⟩ <;> rfl
      have e : s'.cl.total + paidOut s' = s.cl.total + paidOut s := by
        simp only [paidOut, events, List.map_cons, List.sum_cons, ClEvent.amount, total]; omega
      rw [e, hm]; exact ih
    · subst hop
      have ht := plainAdd_mod total
      have e : paidOut s' = paidOut s := by simp only [paidOut, events]
      show (s'.cl.total + paidOut s') % (c.balMax + 1) = (s0.cl.total + (mintedIn acc + v)) % (c.balMax + 1)
      rw [e, Nat.add_mod, ht, ← Nat.add_mod, show s.cl.total + v + paidOut s = s.cl.total + paidOut s + v by omega,
        Nat.add_mod, ih, ← Nat.add_mod, Nat.add_assoc]
    · subst hop; exact ih

example : claimsStart.cl.events = [] ∧ claimsStart.cl.total = 300 ∧ Fits cfg claimsStart.cl.total (accepted cfg claimsStart claimsHistory) ∧
    (accepted cfg claimsStart claimsHistory).length = 4 ∧ paidOut (run cfg claimsStart claimsHistory) = 300 ∧
    (run cfg claimsStart claimsHistory).cl.total = 50 :=
  ⟨rfl, by decide +kernel, by unfold Fits; decide +kernel, by decide +kernel, by decide +kernel, by decide +kernel⟩

/-! ### C48 The claims pot is always solvent -/

/-- C48: whatever happens, the open claims are covered by the total (if the amounts minted fit into the balance
type or overflow is checked). -/
theorem C48_solvent (c : Cfg) (s0 : Chain) (ops : List Op) (h0 : Solvent s0)
    (hf : c.overflowChecks = true ∨ Fits c s0.cl.total (accepted c s0 ops)) : Solvent (run c s0 ops) := by
  suffices h : (c.overflowChecks = true ∨ Fits c s0.cl.total (accepted c s0 ops)) →
      Solvent (run c s0 ops) ∧ (run c s0 ops).cl.total ≤ s0.cl.total + mintedIn (accepted c s0 ops) from (h hf).1
  refine history_induction (c := c) (s0 := s0) (P := fun s acc => (c.overflowChecks = true ∨ Fits c s0.cl.total acc) →
      Solvent s ∧ s.cl.total ≤ s0.cl.total + mintedIn acc) ?_ ?_ ops
  · intro _; exact ⟨h0, by omega⟩
  · intro s s' op acc ih hx hf
    have hf' : c.overflowChecks = true ∨ Fits c s0.cl.total acc := by
      rcases hf with h | h
      · exact .inl h
      · right; unfold Fits at h ⊢; rw [mintedIn_snoc] at h; omega
    obtain ⟨i1, i2⟩ := ih hf'
    have hfit : c.overflowChecks = true ∨ s.cl.total + op.minted ≤ c.balMax := by
      rcases hf with h | h
      · exact .inl h
      · right; unfold Fits at h; rw [mintedIn_snoc] at h; simp only at h; omega
    refine ⟨solvent_exec i1 hx hfit, ?_⟩
    rw [mintedIn_snoc]
    rcases claims_effect hx with ⟨h, hop⟩ | ⟨g, dest, due, auth, hc, ht, hp, total, claims, _, _, events⟩ |
      ⟨who, v, vest, st, hop, total, claims, _, _, _, events⟩ | ⟨o, old, new, p, hop, auth, rfl⟩
    · rw [h]; omega
    · rw [total]; omega
    · subst hop
      have := plainAdd_fits total (by simpa [Op.minted] using hfit)
      simp only [Op.minted]; omega
    · show s.cl.total ≤ _; omega

/-- Open claims after a list of genesis entries. -/
theorem openClaims_fold_le (gs : List GenesisClaim) (m : EthAddr → Option Nat) (l : List EthAddr) (hl : l.Nodup) :
    openClaims (gs.foldl (fun m g => upd m g.addr (some g.value)) m) l ≤
      openClaims m l + (gs.map (·.value)).sum := by
  induction gs generalizing m with
  | nil => simp
  | cons g gs ih =>
    have h1 := ih (upd m g.addr (some g.value))
    simp only [List.foldl_cons, List.map_cons, List.sum_cons]
    have h2 : openClaims (upd m g.addr (some g.value)) l ≤ openClaims m l + g.value := by
      by_cases hm : g.addr ∈ l
      · have := openClaims_upd_mem (m := m) (v := some g.value) hl hm
        simp only [Option.getD_some] at this; omega
      · rw [openClaims_upd_notMem hm]; omega
    omega

/-- The total computed at genesis. -/
theorem genesis_total {c : Cfg} (gs : List GenesisClaim) (t0 t : Nat)
    (h : gs.foldlM (fun acc g => plainAdd c c.balMax acc g.value) t0 = .ok t)
    (hf : c.overflowChecks = true ∨ t0 + (gs.map (·.value)).sum ≤ c.balMax) : t = t0 + (gs.map (·.value)).sum := by
  induction gs generalizing t0 with
  | nil => simp [pure, Except.pure] at h; simp [h]
  | cons g gs ih =>
    rw [List.foldlM_cons, bind_eq_ok] at h
    obtain ⟨t1, h1, h2⟩ := h
    simp only [List.map_cons, List.sum_cons] at hf ⊢
    have e := plainAdd_fits h1 (by
      rcases hf with h | h
      · exact .inl h
      · right; omega)
    subst e
    have := ih (t0 + g.value) h2 (by
      rcases hf with h | h
      · exact .inl h
      · right; omega)
    omega

/-- C48: the genesis state is solvent, even if an address is listed twice. -/
theorem C48_genesis (c : Cfg) (gs : List GenesisClaim) (vs : List (EthAddr × VestingInfo)) (cl : ClaimsSt) (s : Chain)
    (h : Claims.genesis c gs vs = .ok cl) (hs : s.cl = cl)
    (hf : c.overflowChecks = true ∨ (gs.map (·.value)).sum ≤ c.balMax) : Solvent s := by
  unfold Claims.genesis at h
  rw [bind_eq_ok] at h
  obtain ⟨t, ht, h⟩ := h
  simp only [Except.ok.injEq] at h
  have := genesis_total gs 0 t ht (by simpa using hf)
  intro l hl
  rw [hs, ← h]
  have h2 := openClaims_fold_le gs (fun _ => none) l hl
  have h3 : openClaims (fun _ => none) l = 0 := by
    unfold openClaims
    clear h2 hl
    induction l with
    | nil => rfl
    | cons x l ih => rw [List.map_cons, List.sum_cons, ih]; rfl
  simp only
  omega

example : Solvent claimsStart :=
  C48_genesis cfg demoGenesis [] claimsStart.cl claimsStart rfl rfl (.inr (by decide))

/-- The hypotheses of `C48_solvent` and `C48_no_underflow` are met by that start and the history above. -/
example : Solvent (run cfg claimsStart claimsHistory) :=
  C48_solvent cfg claimsStart claimsHistory
    (C48_genesis cfg demoGenesis [] claimsStart.cl claimsStart rfl rfl (.inr (by decide))) (.inr (by unfold Fits; decide +kernel))

/-- C48: so a claim never fails because the pot is empty. -/
theorem C48_no_underflow (c : Cfg) (s0 : Chain) (ops : List Op) (o : Origin) (k : ClaimsCall) (h0 : Solvent s0)
    (hf : c.overflowChecks = true ∨ Fits c s0.cl.total (accepted c s0 ops)) :
    exec c (run c s0 ops) (.ext o (.claims k)) ≠ .error .potUnderflow := by
  have hs := C48_solvent c s0 ops h0 hf
  generalize run c s0 ops = s at *
  have key : ∀ g d, processClaim c s g d ≠ .error .potUnderflow := by
    intro g d h
    rcases processClaim_error h with ⟨h, _⟩ | ⟨_, due, hd, hlt⟩ | ⟨h, _⟩ | ⟨h, _⟩
    · simp at h
    · have h1 := hs [g] (by simp)
      simp only [openClaims, List.map_cons, List.map_nil, hd, Option.getD_some, List.sum_cons, List.sum_nil, Nat.add_zero] at h1
      omega
    · simp at h
    · simp at h
  intro h
  cases k with
  | claim dest sig =>
    rcases claim_error h with ⟨h, _⟩ | ⟨h, _⟩ | ⟨g, _, ⟨h, _⟩ | h⟩
    · simp at h
    · simp at h
    · simp at h
    · exact key _ _ h
  | claimAttest dest sig st =>
    rcases claimAttest_error h with ⟨h, _⟩ | ⟨h, _⟩ | ⟨g, _, ⟨h, _⟩ | h⟩
    · simp at h
    · simp at h
    · simp at h
    · exact key _ _ h
  | attest st =>
    rcases attest_error h with ⟨h, _⟩ | ⟨a, _, ⟨h, _⟩ | ⟨g, _, ⟨h, _⟩ | h⟩⟩
    · simp at h
    · simp at h
    · simp at h
    · exact key _ _ h
  | mintClaim who v vest st =>
    simp only [exec, Verif.dispatch, Claims.dispatch, mintClaim, bind_eq_error, reduceCtorEq, and_false, exists_false,
      or_false] at h
    rcases h with h | ⟨_, _, h⟩
    · cases o <;> simp [ensureRoot] at h
    · unfold plainAdd at h
      split at h
      · simp at h
      · split at h <;> simp at h
  | moveClaim old new p =>
    simp [exec, Verif.dispatch, Claims.dispatch, moveClaim, bind_eq_error] at h

example (k : ClaimsCall) (o : Origin) :
    exec cfg (run cfg claimsStart claimsHistory) (.ext o (.claims k)) ≠ .error .potUnderflow :=
  C48_no_underflow cfg claimsStart claimsHistory o k
    (C48_genesis cfg demoGenesis [] claimsStart.cl claimsStart rfl rfl (.inr (by decide))) (.inr (by unfold Fits; decide +kernel))

example : Solvent claimsStart ∧ Fits cfg claimsStart.cl.total (accepted cfg claimsStart claimsHistory) :=
  ⟨C48_genesis cfg demoGenesis [] claimsStart.cl claimsStart rfl rfl (.inr (by decide)), by unfold Fits; decide +kernel⟩

/-! ### C49 Total equals the sum of open claims -/

/-- The full claim, from an exact genesis. It is false for the code (see `C49_refuted`). -/
def C49_Full : Prop :=
  ∀ (c : Cfg) (s0 : Chain) (ops : List Op), Exact s0 → Fits c s0.cl.total (accepted c s0 ops) → Exact (run c s0 ops)

/-- No claims at all is exact. -/
theorem exact_nothing (s : Chain) (h : ∀ a, s.cl.claims a = none) (ht : s.cl.total = 0) : Exact s := by
  refine ⟨⟨[], fun a ha => absurd (h a) ha⟩, fun l _ _ => ?_⟩
  rw [ht]
  clear ht
  unfold openClaims
  have hz : ∀ l : List EthAddr, (l.map fun a => (s.cl.claims a).getD 0).sum = 0 := by
    intro l
    induction l with
    | nil => rfl
    | cons x l ih => rw [List.map_cons, List.sum_cons, ih, h x]; rfl
  exact hz l

/-- Minting a second time for an address replaces the claim, but adds to the total. -/
theorem C49_refuted : ¬ C49_Full := by
  intro h
  have := h cfg start [mintOp ethA 100 none none, mintOp ethA 30 none none] (exact_nothing _ (fun _ => rfl) rfl)
    (by unfold Fits; decide +kernel) |>.2 [ethA] (by decide) (by
      intro a ha
      by_cases he : a = ethA
      · simp [he]
      · exfalso
        apply ha
        show upd (upd (fun _ => none) ethA (some 100)) ethA (some 30) a = none
        rw [upd_ne _ _ he, upd_ne _ _ he])
  revert this
  decide +kernel

/-- C49, partial: the total is exact if no open claim was ever overwritten by minting or moving another claim to
the same address. Missing: such overwritten claims stay in the total for ever. -/
theorem C49_no_overwrite_partial (c : Cfg) (s0 : Chain) (ops : List Op) (h0 : Exact s0) (hev : s0.cl.events = [])
    (hf : c.overflowChecks = true ∨ Fits c s0.cl.total (accepted c s0 ops))
    (hno : ∀ p ∈ accepted c s0 ops, NoOverwrite p) : Exact (run c s0 ops) := by
  have key : ∀ ops : List Op, (c.overflowChecks = true ∨ Fits c s0.cl.total (accepted c s0 ops)) →
      (∀ p ∈ accepted c s0 ops, NoOverwrite p) →
      Exact (run c s0 ops) ∧ (run c s0 ops).cl.total ≤ s0.cl.total + mintedIn (accepted c s0 ops) := by
    intro ops
    refine history_induction (c := c) (s0 := s0) (P := fun s acc => (c.overflowChecks = true ∨ Fits c s0.cl.total acc) →
      (∀ p ∈ acc, NoOverwrite p) → Exact s ∧ s.cl.total ≤ s0.cl.total + mintedIn acc) ?_ ?_ ops
    · intro _ _; exact ⟨h0, by omega⟩
    · intro s s' op acc ih hx hf hno
      have hf' : c.overflowChecks = true ∨ Fits c s0.cl.total acc := by
        rcases hf with h | h
        · exact .inl h
        · right; unfold Fits at h ⊢; rw [mintedIn_snoc] at h; omega
      obtain ⟨i1, i2⟩ := ih hf' (fun p hp => hno p (List.mem_append_left _ hp))
      have hfit : c.overflowChecks = true ∨ s.cl.total + op.minted ≤ c.balMax := by
        rcases hf with h | h
        · exact .inl h
        · right; unfold Fits at h; rw [mintedIn_snoc] at h; simp only at h; omega
      refine ⟨exact_exec i1 hx (hno (s, op) (by simp)) hfit, ?_⟩
      rw [mintedIn_snoc]
      rcases claims_effect hx with ⟨h, hop⟩ | ⟨g, dest, due, auth, hc, ht, hp, total, claims, _, _, events⟩ |
        ⟨who, v, vest, st, hop, total, claims, _, _, _, events⟩ | ⟨o, old, new, p, hop, auth, rfl⟩
      · rw [h]; omega
      · rw [total]; omega
      · subst hop
        have := plainAdd_fits total (by simpa [Op.minted] using hfit)
        simp only [Op.minted]; omega
      · show s.cl.total ≤ _; omega
  exact (key ops hf hno).1

example : Exact start ∧ ∀ p ∈ accepted cfg start [mintOp ethA 100 none none, mintOp ethB 30 none none, claimOp carol],
    NoOverwrite p := by
  refine ⟨exact_nothing _ (fun _ => rfl) rfl, ?_⟩
  have h1 : exec cfg start (mintOp ethA 100 none none) = .ok (step cfg start (mintOp ethA 100 none none)) :=
    exec_ok_of_isOk (by decide +kernel)
  have h2 : exec cfg (step cfg start (mintOp ethA 100 none none)) (mintOp ethB 30 none none) =
    .ok (step cfg (step cfg start (mintOp ethA 100 none none)) (mintOp ethB 30 none none)) :=
    exec_ok_of_isOk (by decide +kernel)
  have h3 : exec cfg (step cfg (step cfg start (mintOp ethA 100 none none)) (mintOp ethB 30 none none)) (claimOp carol) =
    .ok _ := exec_ok_of_isOk (by decide +kernel)
  rw [accepted_cons_ok h1, accepted_cons_ok h2, accepted_cons_ok h3]
  intro p hp
  simp only [accepted, List.mem_cons, List.not_mem_nil, or_false] at hp
  rcases hp with rfl | rfl | rfl
  · show start.cl.claims ethA = none; rfl
  · show (step cfg start (mintOp ethA 100 none none)).cl.claims ethB = none; decide +kernel
  · exact trivial

/-! ### C50 A claim is paid at most once and in full -/

/-- C50: a payment is exactly the recorded claim of the address, and removes it together with vesting and
statement; nothing of other addresses changes. -/
theorem C50_in_full (c : Cfg) (s s' : Chain) (op : Op) (h : exec c s op = .ok s') (dest : AccountId) (g : EthAddr) (n : Nat)
    (hev : s'.cl.events = .claimed dest g n :: s.cl.events) :
    s.cl.claims g = some n ∧ s'.cl.total + n = s.cl.total ∧ s'.cl.claims g = none ∧ s'.cl.vesting g = none ∧
    s'.cl.signing g = none ∧
    ∀ x, x ≠ g → s'.cl.claims x = s.cl.claims x ∧ s'.cl.vesting x = s.cl.vesting x ∧
      s'.cl.signing x = s.cl.signing x := by
  have hne : ∀ e (l : List ClEvent), e :: l ≠ l := fun e l h => absurd (congrArg List.length h) (by simp)
  rcases claims_effect h with ⟨h, hop⟩ | ⟨g', dest', due, auth, hc, ht, hp, total, claims, vesting, signing, events⟩ |
    ⟨who, v, vest, st, hop, total, claims, _, _, _, events⟩ | ⟨o, old, new, p, hop, auth, rfl⟩
  · rw [h] at hev; exact absurd hev.symm (hne _ _)
  · rw [events] at hev
    simp only [List.cons.injEq, ClEvent.claimed.injEq, and_true] at hev
    obtain ⟨rfl, rfl, rfl⟩ := hev
    rw [claims, vesting, signing, total]
    refine ⟨hc, by omega, by simp, by simp, by simp, ?_⟩
    intro x hx
    simp [hx]
  · rw [events] at hev; exact absurd hev.symm (hne _ _)
  · exact absurd hev.symm (hne _ _)

example : (step cfg claimsStart (claimOp carol)).cl.total + 100 = claimsStart.cl.total ∧
    (step cfg claimsStart (claimOp carol)).cl.claims ethA = none :=
  have h := C50_in_full cfg claimsStart _ (claimOp carol) (exec_ok_of_isOk (by decide +kernel)) carol ethA 100
    (by decide +kernel)
  ⟨h.2.1, h.2.2.1⟩

/-- C50: after a payment no further payment for the address happens until root mints, or somebody entitled moves,
a claim to it. -/
theorem C50_once (c : Cfg) (s s' : Chain) (op : Op) (h : exec c s op = .ok s') (dest : AccountId) (g : EthAddr) (n : Nat)
    (hev : s'.cl.events = .claimed dest g n :: s.cl.events) (ops : List Op)
    (hops : ∀ op ∈ ops, op.givesClaimTo ≠ some g) : paymentsTo (run c s' ops) g = paymentsTo s' g := by
  have hnone := (C50_in_full c s s' op h dest g n hev).2.2.1
  suffices hh : (run c s' ops).cl.claims g = none ∧ paymentsTo (run c s' ops) g = paymentsTo s' g from hh.2
  refine run_invariant' (c := c) (Q := fun op => op.givesClaimTo ≠ some g)
    (P := fun st => st.cl.claims g = none ∧ paymentsTo st g = paymentsTo s' g) ?_ ⟨hnone, rfl⟩ ops hops
  rintro st st' op hq ⟨i1, i2⟩ hx
  rcases claims_effect hx with ⟨h, hop⟩ | ⟨g', dest', due, auth, hc, ht, hp, total, claims, vesting, signing, events⟩ |
    ⟨who, v, vest, st, hop, total, claims, _, _, _, events⟩ | ⟨o, old, new, p, hop, auth, rfl⟩
  · rw [h]; exact ⟨i1, by rw [← i2]; simp [paymentsTo, h]⟩
  · have hgg : g' ≠ g := fun e => by rw [e, i1] at hc; simp at hc
    rw [claims, upd_ne _ _ (Ne.symm hgg)]
    exact ⟨i1, by rw [← i2]; simp [paymentsTo, events, ClEvent.addr, hgg]⟩
  · subst hop
    have hw : who ≠ g := fun e => hq (by simp [Op.givesClaimTo, e])
    rw [claims, upd_ne _ _ (Ne.symm hw)]
    exact ⟨i1, by rw [← i2]; simp [paymentsTo, events]⟩
  · subst hop
    have hw : new ≠ g := fun e => hq (by simp [Op.givesClaimTo, e])
    refine ⟨?_, i2⟩
    show moveEntry _ old new g = none
    rw [moveEntry_apply]
    split
    · exact i1
    · rw [if_neg (Ne.symm hw)]
      split
      · rfl
      · exact i1

example : (run cfg claimsStart (claimsHistory.take 2)).cl.events = .claimed carol ethA 100 :: claimsStart.cl.events ∧
    (∀ op ∈ (claimsHistory.drop 2).take 3, op.givesClaimTo ≠ some ethA) := by decide +kernel

/-! ### C51 Claim messages are unambiguous -/

/-- C51: the message checked is what `personal_sign` makes of prefix, account in hex and statement. -/
theorem C51_message (c : Cfg) (dest : AccountId) (st : Bytes) :
    ethereumSignableMessage c (toAsciiHex dest.val) st = personalMessage (claimPayload c.claimsPrefix dest st) :=
  message_eq c dest st

example : claimPayload cfg.claimsPrefix (Arr.fill 32 0x2a) StatementKind.saft.statement =
    asciiBytes ("Pay" ++ String.join (List.replicate 32 "2a")) ++ StatementKind.saft.statement := by decide +kernel

/-- C51: different accounts or statements have different messages. -/
theorem C51_injective (c : Cfg) (dest dest' : AccountId) (st st' : Bytes)
    (h : ethereumSignableMessage c (toAsciiHex dest.val) st = ethereumSignableMessage c (toAsciiHex dest'.val) st') :
    dest = dest' ∧ st = st' := by
  rw [message_eq, message_eq] at h
  have hne : ∀ (d : AccountId) (st : Bytes), claimPayload c.claimsPrefix d st ≠ [] := by
    intro d st he
    have := congrArg List.length he
    simp only [claimPayload, List.length_append, hexOf_length, d.property, List.length_nil] at this
    omega
  have h := personalMessage_inj _ _ (hne _ _) (hne _ _) h
  unfold claimPayload at h
  rw [List.append_assoc, List.append_assoc, List.append_cancel_left_eq] at h
  obtain ⟨h1, h2⟩ := List.append_inj h (by rw [hexOf_length, hexOf_length, dest.property, dest'.property])
  exact ⟨Subtype.ext (hexOf_inj _ _ h1), h2⟩

/-- Different destinations and different statements give different messages. -/
example : ethereumSignableMessage cfg (toAsciiHex alice.val) [] ≠ ethereumSignableMessage cfg (toAsciiHex bob.val) [] :=
  fun h => absurd (C51_injective cfg alice bob [] [] h).1 (by decide)

/-- C51: the address is taken from exactly this message. -/
theorem C51_recover (c : Cfg) (sig : EthSig) (dest : AccountId) (st : Bytes) (g : EthAddr) :
    ethRecover c sig (toAsciiHex dest.val) st = some g ↔ SignedBy c g sig dest st := ethRecover_iff c sig dest st g

example : ethereumSignableMessage cfg (toAsciiHex (Arr.fill 32 0x2a).val) [] =
    0x19 :: asciiBytes ("Ethereum Signed Message:\n67Pay" ++ String.join (List.replicate 32 "2a")) := by decide +kernel

/-! ### C52 Validated unsigned claims -/

/-- Everything about an accepted unsigned call. -/
theorem validateUnsigned_ok {c : Cfg} {s : Chain} {k : ClaimsCall} {v : ValidTransaction} :
    validateUnsigned c s k = .ok v ↔
      ∃ g, s.cl.claims g ≠ none ∧
      v = { priority := 100, requires := [], provides := [providesTag g], longevity := 2 ^ 64 - 1, propagate := true } ∧
      ((∃ dest sig, k = .claim dest sig ∧ SignedBy c g sig dest [] ∧ s.cl.signing g = none) ∨
       (∃ dest sig kind, k = .claimAttest dest sig kind.statement ∧ SignedBy c g sig dest kind.statement ∧
        s.cl.signing g = some kind)) := by
  have hsome : ∀ {α : Type} (x : Option α), x.isSome = true ↔ x ≠ none := fun x => by cases x <;> simp
  cases k with
  | claim dest sig =>
    simp only [validateUnsigned, pure_bind, bind_eq_ok, okOr_eq_ok, ensure_eq_ok, Except.ok.injEq, hsome]
    constructor
    · rintro ⟨g, hg, _, hc, h⟩
      cases hk : s.cl.signing g with
      | some k => simp [hk, bind_eq_ok] at h
      | none =>
        simp only [hk, bind_eq_ok, ensure_eq_ok, Except.ok.injEq] at h
        obtain ⟨_, _, h⟩ := h
        exact ⟨g, hc, h.symm, .inl ⟨dest, sig, rfl, (ethRecover_iff ..).mp hg, hk⟩⟩
    · rintro ⟨g, hc, rfl, ⟨d, sg, hk, h1, h2⟩ | ⟨_, _, _, hk, _⟩⟩
      · simp only [ClaimsCall.claim.injEq] at hk
        obtain ⟨rfl, rfl⟩ := hk
        exact ⟨g, (ethRecover_iff ..).mpr h1, (), hc, by simp [h2, toText_eq, ensure, Bind.bind, Except.bind]⟩
      · simp at hk
  | claimAttest dest sig st =>
    simp only [validateUnsigned, pure_bind, bind_eq_ok, okOr_eq_ok, ensure_eq_ok, Except.ok.injEq, hsome]
    constructor
    · rintro ⟨g, hg, _, hc, h⟩
      cases hk : s.cl.signing g with
      | none => simp [hk, bind_eq_ok] at h
      | some k =>
        simp only [hk, bind_eq_ok, ensure_eq_ok, decide_eq_true_eq, Option.some.injEq] at h
        obtain ⟨_, rfl, h⟩ := h
        refine ⟨g, hc, ?_, .inr ⟨dest, sig, k, rfl, (ethRecover_iff ..).mp hg, hk⟩⟩
        simpa using h.symm
    · rintro ⟨g, hc, rfl, ⟨d, sg, hk, h1, h2⟩ | ⟨d, sg, kind, hk, h1, h2⟩⟩
      · simp at hk
      · simp only [ClaimsCall.claimAttest.injEq] at hk
        obtain ⟨rfl, rfl, rfl⟩ := hk
        exact ⟨g, (ethRecover_iff ..).mpr h1, (), hc, by simp [h2, toText_eq, ensure, Bind.bind, Except.bind]⟩
  | mintClaim _ _ _ _ => simp [validateUnsigned, bind_eq_ok]
  | attest _ => simp [validateUnsigned, bind_eq_ok]
  | moveClaim _ _ _ => simp [validateUnsigned, bind_eq_ok]

/-- C52: exactly which unsigned calls are accepted into the pool. -/
theorem C52_validate_iff (c : Cfg) (s : Chain) (k : ClaimsCall) :
    (∃ v, validateUnsigned c s k = .ok v) ↔
      (∃ dest sig g, k = .claim dest sig ∧ SignedBy c g sig dest [] ∧ s.cl.claims g ≠ none ∧ s.cl.signing g = none) ∨
      (∃ dest sig g kind, k = .claimAttest dest sig kind.statement ∧ SignedBy c g sig dest kind.statement ∧
        s.cl.claims g ≠ none ∧ s.cl.signing g = some kind) := by
  simp only [validateUnsigned_ok]
  constructor
  · rintro ⟨v, g, hc, rfl, ⟨d, sg, hk, h1, h2⟩ | ⟨d, sg, kind, hk, h1, h2⟩⟩
    · exact .inl ⟨d, sg, g, hk, h1, hc, h2⟩
    · exact .inr ⟨d, sg, g, kind, hk, h1, hc, h2⟩
  · rintro (⟨d, sg, g, hk, h1, hc, h2⟩ | ⟨d, sg, g, kind, hk, h1, hc, h2⟩)
    · exact ⟨_, g, hc, rfl, .inl ⟨d, sg, hk, h1, h2⟩⟩
    · exact ⟨_, g, hc, rfl, .inr ⟨d, sg, kind, hk, h1, h2⟩⟩

example : ∃ dest sig g, ClaimsCall.claim carol anySig = .claim dest sig ∧ SignedBy cfg g sig dest [] ∧
    claimsStart.cl.claims g ≠ none ∧ claimsStart.cl.signing g = none :=
  ((C52_validate_iff cfg claimsStart (.claim carol anySig)).mp ⟨_, rfl⟩).resolve_right
    fun ⟨_, _, _, _, h, _⟩ => ClaimsCall.noConfusion h

/-- Addresses recovered from one signature and message agree. -/
theorem SignedBy.unique {c : Cfg} {g g' : EthAddr} {sig : EthSig} {dest : AccountId} {st : Bytes}
    (h : SignedBy c g sig dest st) (h' : SignedBy c g' sig dest st) : g = g' := by
  have := (ethRecover_iff ..).mpr h
  rw [(ethRecover_iff ..).mpr h'] at this
  exact (Option.some.inj this).symm

/-- How an accepted unsigned call can still fail. -/
theorem validated_error {c : Cfg} {s : Chain} {k : ClaimsCall} {v : ValidTransaction}
    (h : validateUnsigned c s k = .ok v) {e : Err} (hx : exec c s (.ext .none (.claims k)) = .error e) :
    ∃ g dest, processClaim c s g dest = .error e ∧ s.cl.claims g ≠ none ∧
      ((∃ sig, k = .claim dest sig ∧ SignedBy c g sig dest []) ∨
       ∃ sig st, k = .claimAttest dest sig st ∧ SignedBy c g sig dest st) := by
  obtain ⟨g, hc, -, ⟨d, sg, rfl, h1, h2⟩ | ⟨d, sg, kind, rfl, h1, h2⟩⟩ := validateUnsigned_ok.mp h
  · rcases claim_error hx with ⟨_, h⟩ | ⟨_, h⟩ | ⟨g', hg', ⟨_, h⟩ | h⟩
    · exact absurd rfl h
    · exact absurd h1 (h g)
    · rw [hg'.unique h1] at h; exact absurd h2 h
    · rw [hg'.unique h1] at h; exact ⟨g, d, h, hc, .inl ⟨sg, rfl, h1⟩⟩
  · rcases claimAttest_error hx with ⟨_, h⟩ | ⟨_, h⟩ | ⟨g', hg', ⟨_, k, h, h'⟩ | h⟩
    · exact absurd rfl h
    · exact absurd h1 (h g)
    · rw [hg'.unique h1, h2] at h
      exact absurd (congrArg StatementKind.statement (Option.some.inj h).symm) h'
    · rw [hg'.unique h1] at h; exact ⟨g, d, h, hc, .inr ⟨sg, _, rfl, h1⟩⟩

/-- C52: if a call is accepted into the pool, dispatching it in the same state does not fail because of its origin,
signature, a missing claim or the statement. -/
theorem C52_dispatch (c : Cfg) (s : Chain) (k : ClaimsCall) (v : ValidTransaction) (h : validateUnsigned c s k = .ok v)
    (e : Err) (he : e = .badOrigin ∨ e = .invalidEthereumSignature ∨ e = .signerHasNoClaim ∨ e = .invalidStatement ∨
      e = .senderHasNoClaim) : exec c s (.ext .none (.claims k)) ≠ .error e := by
  intro hx
  obtain ⟨g, d, hp, hc, _⟩ := validated_error h hx
  rcases processClaim_error hp with ⟨rfl, h⟩ | ⟨rfl, _⟩ | ⟨rfl, _⟩ | ⟨rfl, _⟩
  · exact hc h
  all_goals simp at he

example : exec cfg claimsStart (claimOp carol) ≠ .error .invalidStatement :=
  C52_dispatch cfg claimsStart (.claim carol anySig) _ rfl _ (.inr (.inr (.inr (.inl rfl))))

/-- C52: the pool keeps at most one of several calls for the same address, and calls for different addresses do not
get into each other's way: the tags provided are equal exactly if the addresses are. -/
theorem C52_tag (c : Cfg) (s : Chain) (dest dest' : AccountId) (sig sig' : EthSig) (g g' : EthAddr)
    (v v' : ValidTransaction) (h : validateUnsigned c s (.claim dest sig) = .ok v)
    (h' : validateUnsigned c s (.claim dest' sig') = .ok v') (hg : SignedBy c g sig dest [])
    (hg' : SignedBy c g' sig' dest' []) : v.provides = v'.provides ↔ g = g' := by
  have key : ∀ {dest sig g v}, validateUnsigned c s (.claim dest sig) = .ok v → SignedBy c g sig dest [] →
      v.provides = [providesTag g] := by
    intro dest sig g v h hg
    obtain ⟨g1, hc, rfl, ⟨d, sg, hk, h1, h2⟩ | ⟨d, sg, kind, hk, h1, h2⟩⟩ := validateUnsigned_ok.mp h
    · simp only [ClaimsCall.claim.injEq] at hk
      obtain ⟨rfl, rfl⟩ := hk
      rw [h1.unique hg]
    · simp at hk
  rw [key h hg, key h' hg']
  constructor
  · intro e
    simp only [providesTag, List.cons.injEq, and_true, List.cons_append, true_and, List.append_cancel_left_eq] at e
    exact Subtype.ext e
  · rintro rfl; rfl

/-- Two claims of the same signer, for different destinations, exclude each other in the pool. -/
example (v v' : ValidTransaction) (h : validateUnsigned cfg claimsStart (.claim carol anySig) = .ok v)
    (h' : validateUnsigned cfg claimsStart (.claim bob anySig) = .ok v') : v.provides = v'.provides :=
  (C52_tag cfg claimsStart carol bob anySig anySig ethA ethA v v' h h' ⟨Arr.zero 64, rfl, by decide +kernel⟩
    ⟨Arr.zero 64, rfl, by decide +kernel⟩).mpr rfl

example : (validateUnsigned cfg claimsStart (.claim carol anySig)).isOk = true ∧
    (exec cfg claimsStart (claimOp carol)).isOk = true ∧
    (validateUnsigned cfg claimsStart (.claimAttest carol anySig StatementKind.saft.statement)).isOk = false ∧
    (validateUnsigned cfg (run cfg claimsStart [claimOp carol]) (.claim carol anySig)).isOk = false := by decide +kernel

/-- Who signed an unsigned call: the address whose key signed its message. -/
def SignedFor (c : Cfg) (g : EthAddr) : ClaimsCall → Prop
  | .claim dest sig => SignedBy c g sig dest []
  | .claimAttest dest sig st => SignedBy c g sig dest st
  | _ => False

/-- C52: the same for calls of both kinds, with and without a statement, also in different states: the tags are equal exactly
if the addresses are. -/
theorem C52_tag_any (c : Cfg) (s s' : Chain) (k k' : ClaimsCall) (g g' : EthAddr) (v v' : ValidTransaction)
    (h : validateUnsigned c s k = .ok v) (h' : validateUnsigned c s' k' = .ok v') (hg : SignedFor c g k)
    (hg' : SignedFor c g' k') : v.provides = v'.provides ↔ g = g' := by
  have key : ∀ {s k g v}, validateUnsigned c s k = .ok v → SignedFor c g k → v.provides = [providesTag g] := by
    intro s k g v h hg
    obtain ⟨g1, hc, rfl, ⟨d, sg, rfl, h1, h2⟩ | ⟨d, sg, kind, rfl, h1, h2⟩⟩ := validateUnsigned_ok.mp h
    · rw [h1.unique hg]
    · rw [h1.unique hg]
  rw [key h hg, key h' hg']
  constructor
  · intro e
    simp only [providesTag, List.cons.injEq, and_true, List.cons_append, true_and, List.append_cancel_left_eq] at e
    exact Subtype.ext e
  · rintro rfl; rfl

example : (validateUnsigned cfg claimsStart (.claim carol anySig)).isOk = true ∧ SignedFor cfg ethA (.claim carol anySig) :=
  ⟨by decide +kernel, Arr.zero 64, rfl, by decide +kernel⟩

/-! ### C53 A required statement cannot be bypassed -/

/-- C53 -/
theorem C53_statement (c : Cfg) (s s' : Chain) (op : Op) (h : exec c s op = .ok s') (dest : AccountId) (g : EthAddr)
    (n : Nat) (hev : s'.cl.events = .claimed dest g n :: s.cl.events) (k : StatementKind) (hk : s.cl.signing g = some k) :
    (∃ sig, op = .ext .none (.claims (.claimAttest dest sig k.statement)) ∧ SignedBy c g sig dest k.statement) ∨
    (op = .ext (.signed dest) (.claims (.attest k.statement)) ∧ s.cl.preclaims dest = some g) := by
  have hne : ∀ e (l : List ClEvent), e :: l ≠ l := fun e l h => absurd (congrArg List.length h) (by simp)
  rcases claims_effect h with ⟨h, hop⟩ | ⟨g', dest', due, auth, hc, ht, hp, total, claims, vesting, signing, events⟩ |
    ⟨who, v, vest, st, hop, total, claims, _, _, _, events⟩ | ⟨o, old, new, p, hop, auth, rfl⟩
  · rw [h] at hev; exact absurd hev.symm (hne _ _)
  · rw [events] at hev
    simp only [List.cons.injEq, ClEvent.claimed.injEq, and_true] at hev
    obtain ⟨rfl, rfl, rfl⟩ := hev
    rcases auth with ⟨sig, _, _, h⟩ | ⟨sig, st, rfl, h1, h2⟩ | ⟨st, rfl, h1, h2⟩
    · rw [h] at hk; simp at hk
    · rw [h2 k hk]; exact .inl ⟨sig, rfl, h1⟩
    · rw [h2 k hk]; exact .inr ⟨rfl, h1⟩
  · rw [events] at hev; exact absurd hev.symm (hne _ _)
  · exact absurd hev.symm (hne _ _)

example : (∃ sig, attestOp bob .saft = .ext .none (.claims (.claimAttest bob sig StatementKind.saft.statement)) ∧
      SignedBy cfg ethB sig bob StatementKind.saft.statement) ∨
    (attestOp bob .saft = .ext (.signed bob) (.claims (.attest StatementKind.saft.statement)) ∧
      claimsStart.cl.preclaims bob = some ethB) :=
  C53_statement cfg claimsStart _ (attestOp bob .saft) (exec_ok_of_isOk (by decide +kernel)) bob ethB 200
    (by decide +kernel) .saft (by decide +kernel)

/-- C53: whether or not a statement is recorded, only the owner of the Ethereum key or the preclaimed account directs the
money: the call carries a signature by this key for the account that is paid, or is signed by the preclaimed account. -/
theorem C53_owner (c : Cfg) (s s' : Chain) (op : Op) (h : exec c s op = .ok s') (dest : AccountId) (g : EthAddr)
    (n : Nat) (hev : s'.cl.events = .claimed dest g n :: s.cl.events) :
    (∃ sig, op = .ext .none (.claims (.claim dest sig)) ∧ SignedBy c g sig dest []) ∨
    (∃ sig st, op = .ext .none (.claims (.claimAttest dest sig st)) ∧ SignedBy c g sig dest st) ∨
    (∃ st, op = .ext (.signed dest) (.claims (.attest st)) ∧ s.cl.preclaims dest = some g) := by
  have hne : ∀ e (l : List ClEvent), e :: l ≠ l := fun e l h => absurd (congrArg List.length h) (by simp)
  rcases claims_effect h with ⟨h, hop⟩ | ⟨g', dest', due, auth, hc, ht, hp, total, claims, vesting, signing, events⟩ |
    ⟨who, v, vest, st, hop, total, claims, _, _, _, events⟩ | ⟨o, old, new, p, hop, auth, rfl⟩
  · rw [h] at hev; exact absurd hev.symm (hne _ _)
  · rw [events] at hev
    simp only [List.cons.injEq, ClEvent.claimed.injEq, and_true] at hev
    obtain ⟨rfl, rfl, rfl⟩ := hev
    rcases auth with ⟨sig, rfl, h, _⟩ | ⟨sig, st, rfl, h1, h2⟩ | ⟨st, rfl, h1, h2⟩
    · exact .inl ⟨sig, rfl, h⟩
    · exact .inr (.inl ⟨sig, st, rfl, h1⟩)
    · exact .inr (.inr ⟨st, rfl, h1⟩)
  · rw [events] at hev; exact absurd hev.symm (hne _ _)
  · exact absurd hev.symm (hne _ _)

example : claimsStart.cl.signing ethB = some .saft ∧ claimsStart.cl.preclaims bob = some ethB ∧
    (exec cfg claimsStart (attestOp bob .saft)).isOk = true ∧ (exec cfg claimsStart (attestOp bob .regular)).isOk = false ∧
    (step cfg claimsStart (attestOp bob .saft)).cl.events = .claimed bob ethB 200 :: claimsStart.cl.events := by
  decide +kernel

/-! ### C54 Moving a claim preserves it -/

/-- The full claim. It is false for the code (see `C54_refuted`). -/
def C54_Full : Prop :=
  ∀ (c : Cfg) (s s' : Chain) (o : Origin) (old new : EthAddr) (p : Option AccountId),
    exec c s (.ext o (.claims (.moveClaim old new p))) = .ok s' →
      s'.cl.claims new = s.cl.claims old ∧ s'.cl.vesting new = s.cl.vesting old ∧ s'.cl.signing new = s.cl.signing old ∧
      (old ≠ new → s'.cl.claims old = none ∧ s'.cl.vesting old = none ∧ s'.cl.signing old = none)

/-- A claim without statement, moved to an address with one, is subject to that statement afterwards. -/
theorem C54_refuted : ¬ C54_Full := by
  intro h
  have := h cfg claimsStart _ .root ethA ethB none (exec_ok_of_isOk (by decide +kernel))
  revert this
  decide +kernel

/-- C54, partial: only root or the configured origin moves claims. Amount, vesting and statement each go to the new
address if the old one had them; nothing stays at the old address, and other addresses, the total and balances are not
affected. Missing: what the old address did not have is kept from the new one, and what it had replaces what the new
one had (which is then lost). -/
theorem C54_move_partial (c : Cfg) (s s' : Chain) (o : Origin) (old new : EthAddr) (p : Option AccountId)
    (h : exec c s (.ext o (.claims (.moveClaim old new p))) = .ok s') :
    (c.moveClaimOrigin o = true ∨ o = .root) ∧
    s'.cl.claims new = (s.cl.claims old).or (s.cl.claims new) ∧
    s'.cl.vesting new = (s.cl.vesting old).or (s.cl.vesting new) ∧
    s'.cl.signing new = (s.cl.signing old).or (s.cl.signing new) ∧
    (old ≠ new → s'.cl.claims old = none ∧ s'.cl.vesting old = none ∧ s'.cl.signing old = none) ∧
    (∀ x, x ≠ old → x ≠ new → s'.cl.claims x = s.cl.claims x ∧ s'.cl.vesting x = s.cl.vesting x ∧
      s'.cl.signing x = s.cl.signing x) ∧
    (∀ a, s'.cl.preclaims a = if p = some a ∧ s.cl.preclaims a = some old then some new else s.cl.preclaims a) ∧
    s'.cl.total = s.cl.total ∧ s'.cl.events = s.cl.events ∧ s'.bal = s.bal := by
  have key : ∀ {V : Type} (m : EthAddr → Option V), moveEntry m old new new = (m old).or (m new) ∧
      (old ≠ new → moveEntry m old new old = none) ∧ ∀ x, x ≠ old → x ≠ new → moveEntry m old new x = m x := by
    intro V m
    unfold moveEntry
    refine ⟨?_, ?_, ?_⟩
    · cases h : m old <;> simp
    · intro hn
      cases h : m old <;> simp [upd, hn, h]
    · intro x h1 h2
      cases h : m old <;> simp [upd, h1, h2]
  rcases claims_effect h with ⟨h, hop⟩ | ⟨g', dest', due, auth, hc, ht, hp, total, claims, vesting, signing, events⟩ |
    ⟨who, v, vest, st, hop, total, claims, _, _, _, events⟩ | ⟨o', old', new', p', hop, auth, rfl⟩
  · simp [Op.parts, Call.parts] at hop
  · rcases auth with ⟨_, h, _⟩ | ⟨_, _, h, _⟩ | ⟨_, h, _⟩ <;> simp at h
  · simp at hop
  · simp only [Op.ext.injEq, Call.claims.injEq, ClaimsCall.moveClaim.injEq] at hop
    obtain ⟨rfl, rfl, rfl, rfl⟩ := hop
    refine ⟨auth, (key _).1, (key _).1, (key _).1, fun hn => ⟨(key _).2.1 hn, (key _).2.1 hn, (key _).2.1 hn⟩,
      fun x h1 h2 => ⟨(key _).2.2 x h1 h2, (key _).2.2 x h1 h2, (key _).2.2 x h1 h2⟩, ?_, rfl, rfl, rfl⟩
    intro a
    show movedPreclaims s old new p a = _
    unfold movedPreclaims
    cases p with
    | none => simp
    | some q =>
      by_cases hq : q = a
      · subst hq
        by_cases hh : s.cl.preclaims q = some old <;> simp [hh]
      · by_cases hh : s.cl.preclaims q = some old <;> simp [hh, hq, Ne.symm hq]

/-- The new address has a claim with a statement of its own, the old one has none: the statement stays. -/
example : (exec cfg claimsStart (moveOp .root ethA ethB none)).isOk = true ∧
    (step cfg claimsStart (moveOp .root ethA ethB none)).cl.claims ethB = some 100 ∧
    (step cfg claimsStart (moveOp .root ethA ethB none)).cl.signing ethB = some .saft := by decide +kernel

/-- C54: the full claim holds for a new address that has nothing recorded. -/
theorem C54_fresh_partial (c : Cfg) (s s' : Chain) (o : Origin) (old new : EthAddr) (p : Option AccountId)
    (h : exec c s (.ext o (.claims (.moveClaim old new p))) = .ok s') (hc : s.cl.claims new = none)
    (hv : s.cl.vesting new = none) (hs : s.cl.signing new = none) :
    s'.cl.claims new = s.cl.claims old ∧ s'.cl.vesting new = s.cl.vesting old ∧ s'.cl.signing new = s.cl.signing old := by
  obtain ⟨_, h1, h2, h3, _⟩ := C54_move_partial c s s' o old new p h
  rw [h1, h2, h3, hc, hv, hs]
  simp

example : (exec cfg claimsStart (moveOp (.custom 1) ethB ethC (some bob))).isOk = true ∧
    (step cfg claimsStart (moveOp (.custom 1) ethB ethC (some bob))).cl.preclaims bob = some ethC ∧
    claimsStart.cl.claims ethC = none ∧ claimsStart.cl.vesting ethC = none ∧ claimsStart.cl.signing ethC = none ∧
    (exec cfg claimsStart (moveOp (.signed bob) ethB ethC (some bob))).isOk = false := by decide +kernel

/-! ### C55 Claiming never panics -/

/-- The calls by which a claim is paid out. -/
def PaysOut : ClaimsCall → Prop
  | .claim _ _ | .claimAttest _ _ _ | .attest _ => True
  | _ => False

/-- The full claim. It is false for the code (see `C55_refuted`). -/
def C55_Full : Prop :=
  ∀ (c : Cfg) (s0 : Chain) (ops : List Op) (o : Origin) (k : ClaimsCall), 0 < c.maxSchedules →
    (∀ g, s0.cl.vesting g = none) → PaysOut k → exec c (run c s0 ops) (.ext o (.claims k)) ≠ .error .panic

/-- Root records a vesting schedule that releases nothing per block. -/
theorem C55_refuted : ¬ C55_Full := by
  intro h
  exact h cfg start [mintOp ethA 100 (some ⟨40, 0, 10⟩) none] .none (.claim carol anySig) (by decide) (fun _ => rfl) trivial
    rfl

/-- A schedule that pallet vesting accepts. -/
def GoodVesting (v : VestingInfo) : Prop := v.locked = 0 ∨ v.perBlock ≠ 0

/-- Schedules given by an operation are acceptable. -/
def Op.mintsGood : Op → Prop
  | .ext _ (.claims (.mintClaim _ _ (some v) _)) => GoodVesting v
  | _ => True

/-- How paying out fails. -/
theorem paysOut_error {c : Cfg} {s : Chain} {o : Origin} {k : ClaimsCall} {e : Err} (hk : PaysOut k)
    (h : exec c s (.ext o (.claims k)) = .error e) :
    (e = .badOrigin ∨ e = .invalidEthereumSignature ∨ e = .invalidStatement ∨ e = .senderHasNoClaim) ∨
    ∃ g d, processClaim c s g d = .error e := by
  cases k with
  | claim dest sig =>
    rcases claim_error h with ⟨h, _⟩ | ⟨h, _⟩ | ⟨g, _, ⟨h, _⟩ | h⟩
    · simp [h]
    · simp [h]
    · simp [h]
    · exact .inr ⟨_, _, h⟩
  | claimAttest dest sig st =>
    rcases claimAttest_error h with ⟨h, _⟩ | ⟨h, _⟩ | ⟨g, _, ⟨h, _⟩ | h⟩
    · simp [h]
    · simp [h]
    · simp [h]
    · exact .inr ⟨_, _, h⟩
  | attest st =>
    rcases attest_error h with ⟨h, _⟩ | ⟨a, _, ⟨h, _⟩ | ⟨g, _, ⟨h, _⟩ | h⟩⟩
    · simp [h]
    · simp [h]
    · simp [h]
    · exact .inr ⟨_, _, h⟩
  | mintClaim who v vest st => exact hk.elim
  | moveClaim old new p => exact hk.elim

/-- Acceptable schedules stay acceptable. -/
theorem goodVesting_run (c : Cfg) (s0 : Chain) (ops : List Op) (h0 : ∀ g v, s0.cl.vesting g = some v → GoodVesting v)
    (hops : ∀ op ∈ ops, op.mintsGood) : ∀ g v, (run c s0 ops).cl.vesting g = some v → GoodVesting v := by
  refine run_invariant' (c := c) (Q := Op.mintsGood) (P := fun s => ∀ g v, s.cl.vesting g = some v → GoodVesting v)
    ?_ h0 ops hops
  intro s s' op hq ih hx
  rcases claims_effect hx with ⟨h, hop⟩ | ⟨g', dest', due, auth, hc, ht, hp, total, claims, vesting, signing, events⟩ |
    ⟨who, v, vest, st, hop, total, claims, vesting, _, _, events⟩ | ⟨o', old, new, p', hop, auth, rfl⟩
  · rw [h]; exact ih
  · intro g v hv
    rw [vesting] at hv
    by_cases he : g = g'
    · rw [he] at hv; simp at hv
    · rw [upd_ne _ _ he] at hv; exact ih g v hv
  · subst hop
    intro g w hv
    rw [vesting] at hv
    cases vest with
    | none => exact ih g w hv
    | some u =>
      simp only [setSome] at hv
      by_cases he : g = who
      · rw [he, upd_same] at hv
        rw [← Option.some.inj hv]; exact hq
      · rw [upd_ne _ _ he] at hv; exact ih g w hv
  · intro g v hv
    change moveEntry s.cl.vesting old new g = some v at hv
    rw [moveEntry_apply] at hv
    split at hv
    · exact ih _ v hv
    · split at hv
      · cases ho : s.cl.vesting old with
        | none => rw [ho] at hv; exact ih _ v (by simpa using hv)
        | some u => rw [ho] at hv; exact ih old v (by rw [ho]; simpa using hv)
      · split at hv
        · simp at hv
        · exact ih _ v hv

/-- C55, partial: no panic if every schedule recorded at genesis or by root either locks nothing or releases something
per block. Missing: nothing checks this. -/
theorem C55_no_panic_partial (c : Cfg) (s0 : Chain) (ops : List Op) (o : Origin) (k : ClaimsCall)
    (hm : 0 < c.maxSchedules) (h0 : ∀ g v, s0.cl.vesting g = some v → GoodVesting v) (hops : ∀ op ∈ ops, op.mintsGood)
    (hk : PaysOut k) : exec c (run c s0 ops) (.ext o (.claims k)) ≠ .error .panic := by
  have hg := goodVesting_run c s0 ops h0 hops
  generalize run c s0 ops = s at *
  intro h
  rcases paysOut_error hk h with h | ⟨g, d, h⟩
  · simp at h
  · rcases processClaim_error h with ⟨h, _⟩ | ⟨h, _⟩ | ⟨h, _⟩ | ⟨_, v, hv, h1, _, h2⟩
    · simp at h
    · simp at h
    · simp at h
    · rcases hg g v hv with h | h
      · exact h1 h
      · rcases h2 with h2 | h2
        · exact h h2
        · omega

example : (∀ op ∈ claimsHistory, op.mintsGood) ∧ 0 < cfg.maxSchedules := by
  refine ⟨?_, by decide⟩
  intro op hop
  simp only [claimsHistory, List.mem_cons, List.not_mem_nil, or_false] at hop
  rcases hop with rfl | rfl | rfl | rfl | rfl | rfl
  · exact .inr (by decide)
  all_goals trivial

/-! ### C56 Prevalidated attests succeed -/

/-- C56: exactly which attest calls are accepted without fee. -/
theorem C56_prevalidate_iff (s : Chain) (who : AccountId) (st : Bytes) :
    (∃ v, prevalidate s who (.attest st) = .ok v) ↔
      ∃ g, s.cl.preclaims who = some g ∧ ∀ k, s.cl.signing g = some k → k.statement = st := by
  unfold prevalidate
  simp only [bind_eq_ok, okOr_eq_ok]
  constructor
  · rintro ⟨v, g, hg, h⟩
    refine ⟨g, hg, fun k hk => ?_⟩
    simp only [hk, bind_eq_ok, ensure_eq_ok, beq_iff_eq] at h
    obtain ⟨_, h, _⟩ := h
    exact h.symm
  · rintro ⟨g, hg, h⟩
    cases hk : s.cl.signing g with
    | none => exact ⟨_, g, hg, by rw [hk]⟩
    | some k =>
      exact ⟨⟨0, [], [], 2 ^ 64 - 1, true⟩, g, hg, by simp [hk, ← h k hk, toText_eq, ensure, Bind.bind, Except.bind]⟩

example : ∃ g, claimsStart.cl.preclaims bob = some g ∧
    ∀ k, claimsStart.cl.signing g = some k → k.statement = StatementKind.saft.statement :=
  (C56_prevalidate_iff claimsStart bob _).mp (by
    have h : (prevalidate claimsStart bob (.attest StatementKind.saft.statement)).isOk = true := by decide +kernel
    cases hx : prevalidate claimsStart bob (.attest StatementKind.saft.statement) with
    | ok v => exact ⟨v, rfl⟩
    | error e => rw [hx] at h; cases h)

/-- The full claim, from a genesis. It is false for the code (see `C56_refuted`). -/
def C56_Full : Prop :=
  ∀ (c : Cfg) (s0 : Chain) (gs : List GenesisClaim), Claims.genesis c gs [] = .ok s0.cl → ∀ (ops : List Op)
    (who : AccountId) (st : Bytes), (∃ v, prevalidate (run c s0 ops) who (.attest st) = .ok v) →
      ∃ s', exec c (run c s0 ops) (.ext (.signed who) (.claims (.attest st))) = .ok s'

/-- If the claim was taken with the Ethereum key instead, the preclaim stays for ever. -/
theorem C56_refuted : ¬ C56_Full := by
  intro h
  obtain ⟨s', hs⟩ := h cfg { start with cl := (match Claims.genesis cfg [⟨ethA, 100, some alice, none⟩] [] with
    | .ok cl => cl | .error _ => start.cl) } [⟨ethA, 100, some alice, none⟩] rfl [claimOp alice] alice [] ⟨_, rfl⟩
  have h2 := congrArg Except.isOk hs
  rw [show (Except.ok s' : Except Err Chain).isOk = true from rfl] at h2
  clear hs
  revert h2
  decide +kernel

/-- C56, partial: an accepted attest call fails only because the claim was paid out already, or because its vesting
schedule meets another one or is unacceptable to pallet vesting. Missing: these failures cost the sender nothing. -/
theorem C56_failure_partial (c : Cfg) (s : Chain) (who : AccountId) (st : Bytes) (v : ValidTransaction) (hs : Solvent s)
    (h : prevalidate s who (.attest st) = .ok v) (e : Err)
    (hx : exec c s (.ext (.signed who) (.claims (.attest st))) = .error e) :
    ∃ g, s.cl.preclaims who = some g ∧
      (s.cl.claims g = none ∨ ∃ v, s.cl.vesting g = some v ∧
        (s.bal.schedules who ≠ [] ∨ c.maxSchedules = 0 ∨ ¬ GoodVesting v)) := by
  obtain ⟨g, hg, hst⟩ := (C56_prevalidate_iff s who st).mp ⟨v, h⟩
  refine ⟨g, hg, ?_⟩
  rcases attest_error hx with ⟨_, h⟩ | ⟨a, ha, ⟨_, h⟩ | ⟨g', hg', ⟨_, k, h1, h2⟩ | h⟩⟩
  · exact absurd rfl (h who)
  · simp only [Origin.signed.injEq] at ha; subst ha; rw [hg] at h; simp at h
  · simp only [Origin.signed.injEq] at ha; subst ha
    rw [hg] at hg'; obtain rfl := Option.some.inj hg'
    exact absurd (hst k h1) h2
  · simp only [Origin.signed.injEq] at ha; subst ha
    rw [hg] at hg'; obtain rfl := Option.some.inj hg'
    rcases processClaim_error h with ⟨_, h⟩ | ⟨_, due, hd, hlt⟩ | ⟨_, v, hv, h⟩ | ⟨_, v, hv, h1, _, h2⟩
    · exact .inl h
    · have h1 := hs [g] (by simp)
      simp only [openClaims, List.map_cons, List.map_nil, hd, Option.getD_some, List.sum_cons, List.sum_nil, Nat.add_zero] at h1
      omega
    · exact .inr ⟨v, hv, .inl h⟩
    · refine .inr ⟨v, hv, .inr ?_⟩
      rcases h2 with h2 | h2
      · right; rintro (h | h)
        · exact h1 h
        · exact h h2
      · exact .inl h2

/-- An accepted attest call that fails: Bob's claim was moved away without moving Bob's preclaim. -/
example : Solvent (run cfg claimsStart [moveOp .root ethB ethC none]) ∧
    (prevalidate (run cfg claimsStart [moveOp .root ethB ethC none]) bob (.attest [])).isOk = true ∧
    (exec cfg (run cfg claimsStart [moveOp .root ethB ethC none]) (.ext (.signed bob) (.claims (.attest [])))).isOk = false :=
  ⟨C48_solvent cfg claimsStart _ (C48_genesis cfg demoGenesis [] claimsStart.cl claimsStart rfl rfl (.inr (by decide)))
    (.inr (by unfold Fits; decide +kernel)), by decide +kernel, by decide +kernel⟩

example : (prevalidate claimsStart bob (.attest StatementKind.saft.statement)).isOk = true ∧
    (prevalidate claimsStart bob (.attest StatementKind.regular.statement)).isOk = false ∧
    (prevalidate (run cfg claimsStart [attestOp bob .saft]) bob (.attest StatementKind.saft.statement)).isOk = false := by
  decide +kernel

/-! ### C57 Paid out claims arrive -/

/-- The full claim. It is false for the code (see `C57_refuted`). -/
def C57_Full : Prop :=
  ∀ (c : Cfg) (s s' : Chain) (op : Op) (dest : AccountId) (g : EthAddr) (n : Nat), exec c s op = .ok s' →
    s'.cl.events = .claimed dest g n :: s.cl.events → s'.bal.free dest = s.bal.free dest + n

/-- A claim below the existential deposit, claimed for a fresh account. -/
theorem C57_refuted : ¬ C57_Full := by
  intro h
  have := h cfg (run cfg start [mintOp ethA 1 none none]) _ (claimOp (Arr.fill 32 9)) (Arr.fill 32 9) ethA 1
    (exec_ok_of_isOk (by decide +kernel)) (by decide +kernel)
  revert this
  decide +kernel

/-- C57, partial: the amount arrives if the account exists or the amount is at least the existential deposit (and the
issuance fits into the balance type). Otherwise nothing arrives, although the claim is used up. Nobody else's balance
changes. -/
theorem C57_arrives_partial (c : Cfg) (s s' : Chain) (op : Op) (dest : AccountId) (g : EthAddr) (n : Nat)
    (h : exec c s op = .ok s') (hev : s'.cl.events = .claimed dest g n :: s.cl.events)
    (hfit : s.bal.free dest + n ≤ c.balMax ∧ s.bal.issuance + n ≤ c.balMax) :
    (s.bal.free dest ≠ 0 ∨ c.ed ≤ n → s'.bal.free dest = s.bal.free dest + n ∧ s'.bal.issuance = s.bal.issuance + n) ∧
    (s.bal.free dest = 0 ∧ n < c.ed → s'.bal.free dest = 0 ∧ s'.bal.issuance = s.bal.issuance) ∧
    ∀ x, x ≠ dest → s'.bal.free x = s.bal.free x := by
  have hne : ∀ e (l : List ClEvent), e :: l ≠ l := fun e l h => absurd (congrArg List.length h) (by simp)
  rcases claims_effect h with ⟨h, hop⟩ | ⟨g', dest', due, auth, hc, ht, hp, total, claims, vesting, signing, events⟩ |
    ⟨who, v, vest, st, hop, total, claims, _, _, _, events⟩ | ⟨o, old, new, p, hop, auth, rfl⟩
  · rw [h] at hev; exact absurd hev.symm (hne _ _)
  · rw [events] at hev
    simp only [List.cons.injEq, ClEvent.claimed.injEq, and_true] at hev
    obtain ⟨rfl, rfl, rfl⟩ := hev
    obtain ⟨h1, h2, _⟩ := paid_cases hp
    rw [h1, h2]
    unfold Balances.depositCreating
    refine ⟨?_, ?_, ?_⟩
    · intro hh
      by_cases h0 : due = 0
      · simp [h0]
      · rw [if_neg (by omega)]
        simp
    · intro hh
      rw [if_pos (by omega)]
      exact ⟨hh.1, rfl⟩
    · intro x hx
      split
      · rfl
      · simp [hx]
  · rw [events] at hev; exact absurd hev.symm (hne _ _)
  · exact absurd hev.symm (hne _ _)

example : (exec cfg claimsStart (claimOp carol)).isOk = true ∧
    (step cfg claimsStart (claimOp carol)).cl.events = .claimed carol ethA 100 :: claimsStart.cl.events ∧
    claimsStart.bal.free carol + 100 ≤ cfg.balMax ∧ claimsStart.bal.issuance + 100 ≤ cfg.balMax ∧
    (claimsStart.bal.free carol ≠ 0 ∨ cfg.ed ≤ 100) := by decide +kernel

/-! ### C80 Unsigned claims accepted by the pool are paid -/

/-- The full claim. It is false for the code (see `C80_refuted`). -/
def C80_Full : Prop :=
  ∀ (c : Cfg) (s : Chain) (k : ClaimsCall), Solvent s → 0 < c.maxSchedules → (∃ v, validateUnsigned c s k = .ok v) →
    ∃ s', exec c s (.ext .none (.claims k)) = .ok s'

/-- The destination already has a vesting schedule, as after an earlier claim with vesting. -/
theorem C80_refuted : ¬ C80_Full := by
  intro h
  have hs := C48_solvent cfg start [mintOp ethA 100 (some ⟨40, 2, 10⟩) none, claimOp carol,
    mintOp ethA 100 (some ⟨40, 2, 10⟩) none] (by
      intro l _
      rw [(exact_nothing start (fun _ => rfl) rfl).2 l ‹_› (fun a ha => absurd rfl ha)]
      exact Nat.le_refl _) (.inr (by unfold Fits; decide +kernel))
  obtain ⟨s', hs⟩ := h cfg _ (.claim carol anySig) hs (by decide) ⟨_, rfl⟩
  have h2 := congrArg Except.isOk hs
  rw [show (Except.ok s' : Except Err Chain).isOk = true from rfl] at h2
  clear hs
  revert h2
  decide +kernel

/-- C80, partial: in a solvent state an accepted claim fails only because of its vesting schedule: the destination has
one already or pallet vesting does not accept it (then the runtime panics). -/
theorem C80_failure_partial (c : Cfg) (s : Chain) (k : ClaimsCall) (v : ValidTransaction) (hs : Solvent s)
    (h : validateUnsigned c s k = .ok v) (e : Err) (hx : exec c s (.ext .none (.claims k)) = .error e) :
    ∃ g dest v, s.cl.vesting g = some v ∧
      ((∃ sig, k = .claim dest sig ∧ SignedBy c g sig dest []) ∨
       ∃ sig st, k = .claimAttest dest sig st ∧ SignedBy c g sig dest st) ∧
      ((e = .vestedBalanceExists ∧ s.bal.schedules dest ≠ []) ∨
       (e = .panic ∧ (c.maxSchedules = 0 ∨ ¬ GoodVesting v))) := by
  obtain ⟨g, d, hp, hc, hk⟩ := validated_error h hx
  rcases processClaim_error hp with ⟨_, h⟩ | ⟨_, due, hd, hlt⟩ | ⟨he, v, hv, h⟩ | ⟨he, v, hv, h1, _, h2⟩
  · exact absurd h hc
  · have h1 := hs [g] (by simp)
    simp only [openClaims, List.map_cons, List.map_nil, hd, Option.getD_some, List.sum_cons, List.sum_nil, Nat.add_zero] at h1
    omega
  · exact ⟨g, d, v, hv, hk, .inl ⟨he, h⟩⟩
  · refine ⟨g, d, v, hv, hk, .inr ⟨he, ?_⟩⟩
    rcases h2 with h2 | h2
    · right; rintro (h | h)
      · exact h1 h
      · exact h h2
    · exact .inl h2

/-- An accepted claim that fails: Carol has a vesting schedule from an earlier claim. -/
example : Solvent (run cfg claimsStart [mintOp ethA 100 (some ⟨40, 2, 10⟩) none, claimOp carol,
      mintOp ethA 100 (some ⟨40, 2, 10⟩) none]) ∧
    (validateUnsigned cfg (run cfg claimsStart [mintOp ethA 100 (some ⟨40, 2, 10⟩) none, claimOp carol,
      mintOp ethA 100 (some ⟨40, 2, 10⟩) none]) (.claim carol anySig)).isOk = true ∧
    (exec cfg (run cfg claimsStart [mintOp ethA 100 (some ⟨40, 2, 10⟩) none, claimOp carol,
      mintOp ethA 100 (some ⟨40, 2, 10⟩) none]) (claimOp carol)).isOk = false :=
  ⟨C48_solvent cfg claimsStart _ (C48_genesis cfg demoGenesis [] claimsStart.cl claimsStart rfl rfl (.inr (by decide)))
    (.inr (by unfold Fits; decide +kernel)), by decide +kernel, by decide +kernel⟩

example : (validateUnsigned cfg claimsStart (.claim carol anySig)).isOk = true ∧ claimsStart.cl.vesting ethA = none := by
  decide +kernel

/-! ### C81 Minting records what root asked for -/

/-- The full claim. It is false for the code (see `C81_refuted`). -/
def C81_Full : Prop :=
  ∀ (c : Cfg) (s s' : Chain) (o : Origin) (who : EthAddr) (n : Nat) (vest : Option VestingInfo) (st : Option StatementKind),
    exec c s (.ext o (.claims (.mintClaim who n vest st))) = .ok s' →
      s'.cl.claims who = some n ∧ s'.cl.vesting who = vest ∧ s'.cl.signing who = st

/-- An earlier statement stays in force for a claim minted without one. -/
theorem C81_refuted : ¬ C81_Full := by
  intro h
  have := h cfg claimsStart _ .root ethB 5 none none (exec_ok_of_isOk (by decide +kernel))
  revert this
  decide +kernel

/-- C81, partial: root only; the amount is replaced, vesting and statement are replaced if given. Nothing else changes.
Missing: without a given value the earlier one stays in force. -/
theorem C81_mint_partial (c : Cfg) (s s' : Chain) (o : Origin) (who : EthAddr) (n : Nat) (vest : Option VestingInfo)
    (st : Option StatementKind) (h : exec c s (.ext o (.claims (.mintClaim who n vest st))) = .ok s') :
    o = .root ∧ s'.cl.claims who = some n ∧ s'.cl.vesting who = vest.or (s.cl.vesting who) ∧
    s'.cl.signing who = st.or (s.cl.signing who) ∧
    (∀ x, x ≠ who → s'.cl.claims x = s.cl.claims x ∧ s'.cl.vesting x = s.cl.vesting x ∧
      s'.cl.signing x = s.cl.signing x) ∧
    s'.cl.preclaims = s.cl.preclaims ∧ s'.cl.events = s.cl.events ∧ s'.bal = s.bal := by
  have hb : s'.bal = s.bal := by
    have := exec_frame h .currency (by simp [Op.parts, Call.parts])
    exact this
  have key : ∀ {V : Type} (m : EthAddr → Option V) (v : Option V), setSome m who v who = v.or (m who) ∧
      ∀ x, x ≠ who → setSome m who v x = m x := by
    intro V m v
    cases v with
    | none => simp [setSome]
    | some v => refine ⟨by simp [setSome], fun x hx => by simp [setSome, hx]⟩
  rcases claims_effect h with ⟨h, hop⟩ | ⟨g', dest', due, auth, hc, ht, hp, total, claims, vesting, signing, events⟩ |
    ⟨who', v, vest', st', hop, total, claims, vesting, signing, preclaims, events⟩ | ⟨o', old, new, p', hop, auth, rfl⟩
  · simp [Op.parts, Call.parts] at hop
  · rcases auth with ⟨_, h, _⟩ | ⟨_, _, h, _⟩ | ⟨_, h, _⟩ <;> simp at h
  · simp only [Op.ext.injEq, Call.claims.injEq, ClaimsCall.mintClaim.injEq] at hop
    obtain ⟨rfl, rfl, rfl, rfl, rfl⟩ := hop
    rw [claims, vesting, signing]
    exact ⟨rfl, by simp, (key _ _).1, (key _ _).1,
      fun x hx => ⟨by simp [hx], (key _ _).2 x hx, (key _ _).2 x hx⟩, preclaims, events, hb⟩
  · simp at hop

example : (exec cfg claimsStart (mintOp ethC 50 (some ⟨40, 2, 10⟩) none)).isOk = true ∧
    (exec cfg claimsStart (.ext (.signed alice) (.claims (.mintClaim ethC 50 none none)))).isOk = false := by decide +kernel

/-! ### C82 Minting beyond the balance range is refused -/

/-- The full claim: an error, not a panic. It is false for the code (see `C82_refuted`). -/
def C82_Full : Prop :=
  ∀ (c : Cfg) (s : Chain) (who : EthAddr) (n : Nat) (vest : Option VestingInfo) (st : Option StatementKind),
    c.balMax < s.cl.total + n → ∃ e, e ≠ .panic ∧ exec c s (.ext .root (.claims (.mintClaim who n vest st))) = .error e

/-- The total wraps around. -/
theorem C82_refuted : ¬ C82_Full := by
  intro h
  obtain ⟨e, _, he⟩ := h { cfg with overflowChecks := false } claimsStart ethC cfg.balMax none none (by decide +kernel)
  have h2 := congrArg Except.isOk he
  rw [show (Except.error e : Except Err Chain).isOk = false from rfl] at h2
  revert h2
  decide +kernel

/-- C82, partial: with overflow checks the runtime panics, without them the total wraps around. -/
theorem C82_overflow_partial (c : Cfg) (s : Chain) (who : EthAddr) (n : Nat) (vest : Option VestingInfo)
    (st : Option StatementKind) (hn : c.balMax < s.cl.total + n) :
    (c.overflowChecks = true → exec c s (.ext .root (.claims (.mintClaim who n vest st))) = .error .panic) ∧
    (c.overflowChecks = false → ∃ s', exec c s (.ext .root (.claims (.mintClaim who n vest st))) = .ok s' ∧
      s'.cl.total = (s.cl.total + n) % (c.balMax + 1)) := by
  have e : exec c s (.ext .root (.claims (.mintClaim who n vest st))) = mintClaim c s .root who n vest st := rfl
  rw [e]
  unfold mintClaim plainAdd
  rw [if_neg (by omega)]
  refine ⟨fun h => ?_, fun h => ?_⟩
  · simp [h, ensureRoot, Bind.bind, Except.bind]
  · simp [h, ensureRoot, Bind.bind, Except.bind]

example : cfg.balMax < claimsStart.cl.total + cfg.balMax ∧ cfg.overflowChecks = false ∧
    (exec { cfg with overflowChecks := true } claimsStart (mintOp ethC cfg.balMax none none)).isOk = false ∧
    (step cfg claimsStart (mintOp ethC cfg.balMax none none)).cl.total = 299 := by decide +kernel

/-- C82: within the range minting succeeds. -/
theorem C82_ok_partial (c : Cfg) (s : Chain) (who : EthAddr) (n : Nat) (vest : Option VestingInfo)
    (st : Option StatementKind) (hn : s.cl.total + n ≤ c.balMax) :
    ∃ s', exec c s (.ext .root (.claims (.mintClaim who n vest st))) = .ok s' ∧ s'.cl.total = s.cl.total + n := by
  have e : exec c s (.ext .root (.claims (.mintClaim who n vest st))) = mintClaim c s .root who n vest st := rfl
  rw [e]
  unfold mintClaim plainAdd
  rw [if_pos hn]
  exact ⟨_, rfl, rfl⟩

example : cfg.balMax < claimsStart.cl.total + cfg.balMax ∧ claimsStart.cl.total + 5 ≤ cfg.balMax := by decide +kernel

end Verif
