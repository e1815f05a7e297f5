import Verif.Proofs.InvRest
import Verif.Spec.Frame

/-!
# Frame: untouched parts, and induction over histories
-/

namespace Verif

theorem processClaim_frame {c : Cfg} {s s' : Chain} {g : EthAddr} {d : AccountId}
    (h : Claims.processClaim c s g d = .ok s') :
    s'.now = s.now ∧ s'.block = s.block ∧ s'.td = s.td ∧ s'.tx = s.tx ∧ s'.br = s.br ∧ s'.sc = s.sc ∧
      s'.orc = s.orc ∧ s'.ar = s.ar ∧ s'.xt = s.xt ∧ s'.assets = s.assets := by
  rw [Claims.processClaim_ok] at h
  obtain ⟨_, _, _, _, _, rfl⟩ := h
  simp

theorem dispatch_frame {c : Cfg} {s s' : Chain} {o : Origin} {k : Call} (h : dispatch c s o k = .ok s') :
    ∀ p, p ∉ k.parts → p.Same s s' := by
  cases k with
  | bond v =>
    obtain ⟨_, _, _, _, rfl⟩ := Teerdays.bond_ok.mp h
    intro p hp; cases p <;> simp_all [Call.parts, Part.Same]
  | bondExtra v =>
    obtain ⟨_, _, _, _, _, _, rfl⟩ := Teerdays.bondExtra_ok.mp h
    intro p hp; cases p <;> simp_all [Call.parts, Part.Same]
  | unbond v =>
    obtain ⟨_, _, _, _, _, _, _, _, rfl⟩ := Teerdays.unbond_ok.mp h
    intro p hp; cases p <;> simp_all [Call.parts, Part.Same]
  | updateOther v =>
    obtain ⟨_, _, _, _, rfl⟩ := Teerdays.updateOther_ok.mp h
    intro p hp; cases p <;> simp_all [Call.parts, Part.Same]
  | withdrawUnbonded =>
    obtain ⟨_, _, _, _, _, _, rfl⟩ := Teerdays.withdrawUnbonded_ok.mp h
    intro p hp; cases p <;> simp_all [Call.parts, Part.Same]
  | registerSgxEnclave =>
    obtain ⟨_, _, _, _, _, _, _, (⟨_, rfl⟩ | ⟨_, _, _, rfl⟩)⟩ := Teerex.registerSgxEnclave_ok.mp h <;>
    intro p hp <;> cases p <;> simp_all [Call.parts, Part.Same]
  | unregisterSovereignEnclave =>
    obtain ⟨_, _, _, _, _, rfl⟩ := Teerex.unregisterSovereignEnclave_ok.mp h
    intro p hp; cases p <;> simp_all [Call.parts, Part.Same]
  | unregisterProxiedEnclave =>
    obtain ⟨_, _, _, _, _, rfl⟩ := Teerex.unregisterProxiedEnclave_ok.mp h
    intro p hp; cases p <;> simp_all [Call.parts, Part.Same]
  | registerQuotingEnclave =>
    obtain ⟨_, _, _, _, rfl⟩ := Teerex.registerQuotingEnclave_ok.mp h
    intro p hp; cases p <;> simp_all [Call.parts, Part.Same]
  | registerTcbInfo =>
    obtain ⟨_, _, _, _, _, rfl⟩ := Teerex.registerTcbInfo_ok.mp h
    intro p hp; cases p <;> simp_all [Call.parts, Part.Same]
  | setSecurityFlags =>
    obtain ⟨_, rfl⟩ := Teerex.setSecurityFlags_ok.mp h
    intro p hp; cases p <;> simp_all [Call.parts, Part.Same]
  | invoke shard cy =>
    obtain ⟨_, _, rfl⟩ := (EnclaveBridge.invoke_ok (cy := cy)).mp h
    intro p hp; cases p <;> simp_all [Call.parts, Part.Same]
  | confirmProcessedParentchainBlock =>
    obtain ⟨_, _, _, _, rfl⟩ := EnclaveBridge.confirmProcessed_ok.mp h
    intro p hp; cases p <;> simp_all [Call.parts, Part.Same]
  | shieldFunds =>
    obtain ⟨_, _, _, _, rfl⟩ := EnclaveBridge.shieldFunds_ok.mp h
    intro p hp; cases p <;> simp_all [Call.parts, Part.Same]
  | unshieldFunds =>
    obtain ⟨_, _, _, _, (⟨_, _, _, _, _, rfl⟩ | ⟨_, _, _, _, rfl⟩)⟩ := EnclaveBridge.unshieldFunds_ok.mp h <;>
    intro p hp <;> cases p <;> simp_all [Call.parts, Part.Same]
  | publishHash =>
    obtain ⟨_, _, _, _, _, _, _, _, _, rfl⟩ := EnclaveBridge.publishHash_ok.mp h
    intro p hp; cases p <;> simp_all [Call.parts, Part.Same]
  | updateShardConfig =>
    obtain (⟨_, rfl⟩ | ⟨_, _, _, _, _, _, _, _, rfl⟩) := EnclaveBridge.updateShardConfig_ok.mp h <;>
    intro p hp <;> cases p <;> simp_all [Call.parts, Part.Same]
  | purgeEnclave =>
    obtain ⟨_, _, _, _, rfl⟩ := EnclaveBridge.purgeEnclave_ok.mp h
    intro p hp; cases p <;> simp_all [Call.parts, Part.Same]
  | confirmImportedSidechainBlock =>
    obtain ⟨_, _, _, _, _, _, (⟨_, rfl⟩ | ⟨_, _, rfl⟩)⟩ := Sidechain.confirmImported_ok.mp h <;>
    intro p hp <;> cases p <;> simp_all [Call.parts, Part.Same]
  | addToWhitelist =>
    obtain ⟨_, _, _, _, rfl⟩ := Teeracle.addToWhitelist_ok.mp h
    intro p hp; cases p <;> simp_all [Call.parts, Part.Same]
  | removeFromWhitelist =>
    obtain ⟨_, _, rfl⟩ := Teeracle.removeFromWhitelist_ok.mp h
    intro p hp; cases p <;> simp_all [Call.parts, Part.Same]
  | updateOracle =>
    obtain ⟨_, _, _, _, _, _, _, _, rfl⟩ := Teeracle.updateOracle_ok.mp h
    intro p hp; cases p <;> simp_all [Call.parts, Part.Same]
  | updateExchangeRate =>
    obtain ⟨_, _, _, _, _, _, rfl⟩ := Teeracle.updateExchangeRate_ok.mp h
    intro p hp; cases p <;> simp_all [Call.parts, Part.Same]
  | claims k =>
    cases k with
    | claim d g =>
      obtain ⟨_, _, _, _, hp⟩ := Claims.claim_ok.mp h
      have := processClaim_frame hp
      intro p hp; cases p <;> simp_all [Call.parts, Part.Same]
    | mintClaim =>
      obtain ⟨_, _, _, rfl⟩ := Claims.mintClaim_ok.mp h
      intro p hp; cases p <;> simp_all [Call.parts, Part.Same]
    | claimAttest =>
      obtain ⟨_, _, _, _, hp⟩ := Claims.claimAttest_ok.mp h
      have := processClaim_frame hp
      intro p hp; cases p <;> simp_all [Call.parts, Part.Same]
    | attest =>
      obtain ⟨_, _, _, _, _, _, hp, rfl⟩ := Claims.attest_ok.mp h
      have := processClaim_frame hp
      intro p hp; cases p <;> simp_all [Call.parts, Part.Same]
    | moveClaim =>
      obtain ⟨_, rfl⟩ := Claims.moveClaim_ok.mp h
      intro p hp; cases p <;> simp_all [Call.parts, Part.Same]
  | registerReserveAsset =>
    obtain ⟨_, _, _, _, rfl⟩ := AssetRegistry.registerReserveAsset_ok.mp h
    intro p hp; cases p <;> simp_all [Call.parts, Part.Same]
  | unregisterReserveAsset =>
    obtain ⟨_, _, _, rfl⟩ := AssetRegistry.unregisterReserveAsset_ok.mp h
    intro p hp; cases p <;> simp_all [Call.parts, Part.Same]
  | sendSwapUmp =>
    obtain ⟨_, _, _, _, _, _, rfl⟩ := XcmTransactor.sendSwapUmp_ok.mp h
    intro p hp; cases p <;> simp_all [Call.parts, Part.Same]
  | balTransfer =>
    obtain ⟨_, _, _, _, rfl⟩ := balTransfer_ok.mp h
    intro p hp; cases p <;> simp_all [Call.parts, Part.Same]

/-- The parts an operation may touch. -/
def Op.parts : Op → List Part
  | .ext _ k => k.parts
  | .newBlock _ => [.clock]
  | .mint .. | .slash .. | .setOtherLock .. | .vest _ | .addVesting .. => [.currency]
  | .setAsset .. | .destroyAsset _ => [.assets]

theorem exec_frame {c : Cfg} {s s' : Chain} {op : Op} (h : exec c s op = .ok s') :
    ∀ p, p ∉ op.parts → p.Same s s' := by
  cases op with
  | ext o k => exact dispatch_frame h
  | addVesting a v =>
    simp only [exec] at h
    split at h
    · simp only [Except.ok.injEq] at h
      subst h
      intro p hp; cases p <;> simp_all [Op.parts, Part.Same]
    · simp at h
  | _ =>
    simp only [exec, Except.ok.injEq] at h
    subst h
    intro p hp; cases p <;> simp_all [Op.parts, Part.Same]

/-! ### Histories -/

theorem step_cases (c : Cfg) (s : Chain) (op : Op) :
    (exec c s op = .ok (step c s op)) ∨ (step c s op = s ∧ ∃ e, exec c s op = .error e) := by
  unfold step
  cases h : exec c s op <;> simp

theorem step_of_ok {c : Cfg} {s s' : Chain} {op : Op} (h : exec c s op = .ok s') : step c s op = s' := by
  simp [step, h]

theorem step_of_error {c : Cfg} {s : Chain} {op : Op} {e : Err} (h : exec c s op = .error e) :
    step c s op = s := by
  simp [step, h]

theorem run_nil (c : Cfg) (s : Chain) : run c s [] = s := rfl

theorem run_cons (c : Cfg) (s : Chain) (op : Op) (ops : List Op) :
    run c s (op :: ops) = run c (step c s op) ops := rfl

theorem run_append (c : Cfg) (s : Chain) (ops ops' : List Op) :
    run c s (ops ++ ops') = run c (run c s ops) ops' := by
  simp [run]

theorem run_snoc (c : Cfg) (s : Chain) (ops : List Op) (op : Op) :
    run c s (ops ++ [op]) = step c (run c s ops) op := by
  simp [run]

/-- An invariant of every successful operation holds after every history. -/
theorem run_invariant {c : Cfg} {P : Chain → Prop}
    (hexec : ∀ s s' op, P s → exec c s op = .ok s' → P s') {s : Chain} (h0 : P s) (ops : List Op) :
    P (run c s ops) := by
  induction ops generalizing s with
  | nil => exact h0
  | cons op ops ih =>
    rw [run_cons]
    apply ih
    rcases step_cases c s op with h | ⟨h, _⟩
    · exact hexec _ _ _ h0 h
    · rw [h]; exact h0

/-- The same for histories all of whose operations satisfy a condition. -/
theorem run_invariant' {c : Cfg} {P : Chain → Prop} {Q : Op → Prop}
    (hexec : ∀ s s' op, Q op → P s → exec c s op = .ok s' → P s') {s : Chain} (h0 : P s) (ops : List Op)
    (hQ : ∀ op ∈ ops, Q op) : P (run c s ops) := by
  induction ops generalizing s with
  | nil => exact h0
  | cons op ops ih =>
    rw [run_cons]
    apply ih
    · rcases step_cases c s op with h | ⟨h, _⟩
      · exact hexec _ _ _ (hQ _ (by simp)) h0 h
      · rw [h]; exact h0
    · intro op' h'; exact hQ _ (by simp [h'])

theorem accepted_cons_ok {c : Cfg} {s s' : Chain} {op : Op} {ops : List Op} (h : exec c s op = .ok s') :
    accepted c s (op :: ops) = (s, op) :: accepted c s' ops := by
  simp [accepted, h]

theorem accepted_cons_error {c : Cfg} {s : Chain} {op : Op} {ops : List Op} {e : Err}
    (h : exec c s op = .error e) : accepted c s (op :: ops) = accepted c s ops := by
  simp [accepted, h]

/-- Histories and accepted operations, extended at the end. -/
theorem accepted_snoc (c : Cfg) (s : Chain) (ops : List Op) (op : Op) :
    accepted c s (ops ++ [op]) = accepted c s ops ++
      (match exec c (run c s ops) op with
        | .ok _ => [(run c s ops, op)]
        | .error _ => []) := by
  induction ops generalizing s with
  | nil => simp only [List.nil_append, accepted, run_nil]; split <;> simp_all
  | cons o ops ih =>
    rw [run_cons]
    simp only [List.cons_append, accepted]
    cases h : exec c s o with
    | ok s' => simp only [step_of_ok h, ih, List.cons_append]
    | error e => simp only [step_of_error h, ih]

/-- Induction over histories with the accepted operations and the state, extended at the end. -/
theorem history_induction {c : Cfg} {s0 : Chain} {P : Chain → List (Chain × Op) → Prop}
    (h0 : P s0 []) (hexec : ∀ s s' op acc, P s acc → exec c s op = .ok s' → P s' (acc ++ [(s, op)]))
    (ops : List Op) : P (run c s0 ops) (accepted c s0 ops) := by
  have key : ∀ l : List Op, P (run c s0 l.reverse) (accepted c s0 l.reverse) := by
    intro l
    induction l with
    | nil => exact h0
    | cons op l ih =>
      rw [List.reverse_cons, run_snoc, accepted_snoc]
      cases h : exec c (run c s0 l.reverse) op with
      | ok s' => rw [step_of_ok h]; exact hexec _ _ _ _ ih h
      | error e => rw [step_of_error h]; simpa using ih
  simpa using key ops.reverse

end Verif
