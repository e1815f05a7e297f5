import Verif.Proofs.Issuance
import Verif.Proofs.ClaimsInv
import Verif.Spec.DemoBridge

/-!
# Properties across pallets: C68, C69
-/

namespace Verif

open Demo

/-! ### C68 Failed calls have no effect and pallets do not interfere -/

/-- C68: an extrinsic that returns an error leaves the chain as it was, whatever follows. -/
theorem C68_failed (c : Cfg) (s : Chain) (op : Op) (e : Err) (h : exec c s op = .error e) (ops : List Op) :
    run c s (op :: ops) = run c s ops ∧ accepted c s (op :: ops) = accepted c s ops := by
  rw [run_cons, step_of_error h, accepted_cons_error h]
  exact ⟨rfl, rfl⟩

example : (exec cfg start (.ext (.signed alice) (.bond 5))).isOk = false := by decide +kernel

/-- C68: leaving out of a history all that failed makes no difference, to the state or to what succeeds; so the successful operations
alone determine the state. -/
theorem C68_replay (c : Cfg) (s : Chain) (ops : List Op) :
    run c s ((accepted c s ops).map (·.2)) = run c s ops ∧ accepted c s ((accepted c s ops).map (·.2)) = accepted c s ops := by
  induction ops generalizing s with
  | nil => exact ⟨rfl, rfl⟩
  | cons op ops ih =>
    cases h : exec c s op with
    | error e => rw [accepted_cons_error h, run_cons, step_of_error h]; exact ih s
    | ok s' =>
      have h1 : ∀ l, accepted c s (op :: l) = (s, op) :: accepted c s' l := fun l => by simp only [accepted, h]
      rw [h1, List.map_cons, run_cons, run_cons, step_of_ok h, h1]
      exact ⟨(ih s').1, congrArg _ (ih s').2⟩

/-- Of these three operations the second fails. -/
example :
    let ops : List Op := [.ext (.signed alice) (.bond 100), .ext (.signed alice) (.bond 5), .newBlock 6]
    (accepted cfg start ops).length = 2 ∧ (exec cfg (run cfg start (ops.take 1)) (.ext (.signed alice) (.bond 5))).isOk = false := by decide +kernel

/-- C68: every call touches only the parts it is documented to work on (`Call.parts`). -/
theorem C68_frame (c : Cfg) (s s' : Chain) (o : Origin) (k : Call) (h : exec c s (.ext o k) = .ok s') (p : Part)
    (hp : p ∉ k.parts) : p.Same s s' := exec_frame h p hp

example : (exec cfg start (.ext (.signed alice) (.bond 100))).isOk = true ∧ Part.bridge ∉ (Call.bond 100).parts := by
  decide +kernel

/-- C68: no call changes time, block number or the assets of other pallets. -/
theorem C68_outside (c : Cfg) (s s' : Chain) (o : Origin) (k : Call) (h : exec c s (.ext o k) = .ok s') :
    s'.now = s.now ∧ s'.block = s.block ∧ s'.assets = s.assets := by
  have hp : ∀ p, p = Part.clock ∨ p = .assets → p ∉ (Op.ext o k).parts := by
    intro p hp
    cases k with
    | claims k => cases k <;> rcases hp with rfl | rfl <;> simp [Op.parts, Call.parts]
    | _ => rcases hp with rfl | rfl <;> simp [Op.parts, Call.parts]
  have h1 := exec_frame h .clock (hp _ (by simp))
  have h2 := exec_frame h .assets (hp _ (by simp))
  exact ⟨h1.1, h1.2, h2⟩

example : (exec cfg start (.ext (.signed alice) (.bond 100))).isOk = true := by decide +kernel

/-- The calls of the pallets that handle no money: teerdays (locks only), teerex, sidechain, teeracle, asset registry,
XCM, and the administrative calls of bridge and claims. -/
def Call.moneyless : Call → Bool
  | .shieldFunds .. | .unshieldFunds .. | .balTransfer .. => false
  | .claims (.claim ..) | .claims (.claimAttest ..) | .claims (.attest ..) => false
  | _ => true

/-- C68: these never change any free balance or the issuance. -/
theorem C68_moneyless (c : Cfg) (s s' : Chain) (o : Origin) (k : Call) (hk : k.moneyless = true)
    (h : exec c s (.ext o k) = .ok s') : s'.bal.free = s.bal.free ∧ s'.bal.issuance = s.bal.issuance := by
  by_cases hp : Part.currency ∈ (Op.ext o k).parts
  · cases k with
    | bond v => obtain ⟨_, _, _, _, rfl⟩ := Teerdays.bond_ok.mp h; simp
    | bondExtra v => obtain ⟨_, _, _, _, _, _, rfl⟩ := Teerdays.bondExtra_ok.mp h; simp
    | withdrawUnbonded =>
      obtain ⟨_, _, _, _, _, _, rfl⟩ := Teerdays.withdrawUnbonded_ok.mp h
      simp only; split <;> simp
    | claims k => cases k <;> simp_all [Op.parts, Call.parts, Call.moneyless]
    | _ => simp_all [Op.parts, Call.parts, Call.moneyless]
  · have : s'.bal = s.bal := exec_frame h .currency hp
    rw [this]; exact ⟨rfl, rfl⟩

example : (exec cfg start (.ext (.signed alice) (.bond 100))).isOk = true ∧
    (exec cfg start (.ext (.signed alice) (.bond 5))).isOk = false ∧
    Part.bridge ∉ (Call.bond 100).parts ∧ (Call.bond 100).moneyless = true := by decide +kernel

/-- The issuance in the start of the examples is the sum of the balances. -/
theorem start_balanced : Balanced start := by
  refine ⟨⟨[alice, bob], fun a ha => ?_⟩, fun l hl hcov => ?_⟩
  · have : (if a = alice then 1000 else if a = bob then 500 else 0) ≠ 0 := ha
    by_cases h1 : a = alice
    · simp [h1]
    · by_cases h2 : a = bob
      · simp [h2]
      · simp [h1, h2] at this
  · have h1 : alice ∈ l := hcov alice (by decide)
    have h2 : bob ∈ l := hcov bob (by decide)
    have e1 := sumFree_change (b := { bal with free := fun _ => 0 })
      (b' := { bal with free := fun a => if a = alice then 1000 else 0 }) hl h1 (fun x hx => by simp [hx])
    have e2 := sumFree_change (b := { bal with free := fun a => if a = alice then 1000 else 0 })
      (b' := bal) hl h2 (fun x hx => by simp [bal, hx])
    have e0 : sumFree { bal with free := fun _ => 0 } l = 0 := by
      clear hl hcov h1 h2 e1 e2
      induction l with
      | nil => rfl
      | cons x l ih => rw [sumFree_cons, ih]
    have e3 : bal.free bob = 500 := by decide
    have e4 : (if bob = alice then 1000 else 0) = 0 := by decide
    simp only [e3] at e2
    rw [e4] at e2
    rw [e0] at e1
    simp only [if_true] at e1
    show sumFree bal l = 1500
    omega

theorem Balanced.covered {s : Chain} (h : Balanced s) : Covered s := by
  intro l hl
  obtain ⟨⟨l0, h0⟩, hsum⟩ := h
  have key : ∀ l0 : List AccountId, ∃ m : List AccountId, m.Nodup ∧ (∀ x ∈ l0, x ∈ m) ∧
      sumFree s.bal l ≤ sumFree s.bal m := by
    intro l0
    induction l0 with
    | nil => exact ⟨l, hl, by simp, Nat.le_refl _⟩
    | cons x l0 ih =>
      obtain ⟨m, h1, h2, h3⟩ := ih
      by_cases hx : x ∈ m
      · refine ⟨m, h1, fun y hy => ?_, h3⟩
        rcases List.mem_cons.mp hy with rfl | hy
        · exact hx
        · exact h2 y hy
      · refine ⟨x :: m, List.nodup_cons.mpr ⟨hx, h1⟩, fun y hy => ?_, ?_⟩
        · rcases List.mem_cons.mp hy with rfl | hy
          · simp
          · exact List.mem_cons_of_mem _ (h2 y hy)
        · rw [sumFree_cons]; omega
  obtain ⟨m, h1, h2, h3⟩ := key l0
  rw [hsum m h1 (fun a ha => h2 a (h0 a ha))] at h3
  exact h3

/-! ### C69 Only the documented calls create or destroy money -/

/-- C69: issuance increases only by a claim being paid out, by exactly its amount. -/
theorem C69_increase (c : Cfg) (s s' : Chain) (o : Origin) (k : Call) (h : exec c s (.ext o k) = .ok s')
    (hi : s.bal.issuance < s'.bal.issuance) :
    ∃ dest g n, s'.cl.events = .claimed dest g n :: s.cl.events ∧ s.cl.claims g = some n ∧
      s'.bal.issuance = s.bal.issuance + n ∧ s'.bal.free dest = s.bal.free dest + n := by
  rcases claims_effect h with ⟨hcl, hop⟩ | ⟨g, dest, due, auth, hc, ht, hp, total, claims, _, _, events⟩ |
    ⟨who, v, vest, st, hop, total, claims, _, _, _, events⟩ | ⟨o', old, new, p, hop, auth, rfl⟩
  · exfalso
    cases currency_effect h with
    | same hf he => omega
    | transfer src dst v ht _ =>
      rcases Balances.transfer_ok ht with ⟨_, e⟩ | ⟨hv, hne, h1, h2, _, _, e⟩
      · rw [e] at hi; omega
      · rw [e] at hi; simp only at hi; omega
    | claim k' o' g dest due hop' hc ht hf hi' =>
      simp only [Op.ext.injEq] at hop'
      obtain ⟨rfl, rfl⟩ := hop'
      cases k' <;> simp [Op.parts, Call.parts] at hop
    | mint a n hop => simp at hop
    | slash a n hop => simp at hop
  · obtain ⟨h1, h2, _⟩ := paid_cases hp
    unfold Balances.depositCreating at h1 h2
    split at h1
    · rename_i hcond
      rw [if_pos hcond] at h2; omega
    · rename_i hcond
      rw [if_neg hcond] at h2
      exact ⟨dest, g, due, events, hc, h2, by rw [h1]; simp⟩
  · simp only [Op.ext.injEq] at hop
    obtain ⟨rfl, rfl⟩ := hop
    have := exec_frame h .currency (by simp [Op.parts, Call.parts])
    simp only [Part.Same] at this
    rw [this] at hi; omega
  · exact absurd hi (Nat.lt_irrefl _)

/-- Carol's claim of 100 is paid with new money. -/
example : (exec cfg (run cfg start [.ext .root (.claims (.mintClaim (Arr.fill 20 64) 100 none none))]) (.ext .none (.claims (.claim carol (Arr.zero 65))))).isOk = true ∧
    (run cfg start [.ext .root (.claims (.mintClaim (Arr.fill 20 64) 100 none none))]).bal.issuance <
      (step cfg (run cfg start [.ext .root (.claims (.mintClaim (Arr.fill 20 64) 100 none none))]) (.ext .none (.claims (.claim carol (Arr.zero 65))))).bal.issuance := by decide +kernel

/-- C69: issuance decreases only when a transfer or (un)shielding leaves less than the existential deposit on the
source account, by exactly this remainder, and the source account is then empty. -/
theorem C69_decrease (c : Cfg) (s s' : Chain) (o : Origin) (k : Call) (h : exec c s (.ext o k) = .ok s')
    (hi : s'.bal.issuance < s.bal.issuance) :
    ∃ src dst v, ((∃ inc, o = .signed src ∧ k = .shieldFunds dst inc v) ∨ (o = .signed src ∧ k = .balTransfer dst v) ∨
        ∃ hash, k = .unshieldFunds src dst v hash) ∧
      s.bal.free src - v < c.ed ∧ s'.bal.free src = 0 ∧
      s'.bal.issuance = s.bal.issuance - (s.bal.free src - v) := by
  cases currency_effect h with
  | same hf he => omega
  | transfer src dst v ht hop =>
    rcases Balances.transfer_ok ht with ⟨_, e⟩ | ⟨hv, hne, h1, h2, _, _, e⟩
    · rw [e] at hi; omega
    · by_cases hd : s.bal.free src - v < c.ed
      · simp only [hd, if_true] at e
        refine ⟨src, dst, v, ?_, hd, by rw [e]; simp [hne], by rw [e]; simp⟩
        rcases hop with ⟨inc, hop⟩ | hop | ⟨b, hash, hop, _⟩
        · simp only [Op.ext.injEq] at hop; exact .inl ⟨inc, hop.1, hop.2⟩
        · simp only [Op.ext.injEq] at hop; exact .inr (.inl ⟨hop.1, hop.2⟩)
        · simp only [Op.ext.injEq] at hop; exact .inr (.inr ⟨hash, hop.2⟩)
      · simp only [hd, if_false] at e
        rw [e] at hi; simp only at hi; omega
  | claim k' o' g dest due hop' hc ht hf hi' =>
    unfold Balances.depositCreating at hi'
    split at hi'
    · omega
    · simp only at hi'; omega
  | mint a n hop => simp at hop
  | slash a n hop => simp at hop

/-- Five units of dust are lost when Alice leaves less than the existential deposit. -/
example : (exec cfg start (.ext (.signed alice) (.balTransfer carol 995))).isOk = true ∧
    (step cfg start (.ext (.signed alice) (.balTransfer carol 995))).bal.issuance < start.bal.issuance := by decide +kernel

/-- C69: whatever happens, the balances of any accounts are covered by the issuance. -/
theorem C69_covered (c : Cfg) (s0 : Chain) (ops : List Op) (h0 : Covered s0) : Covered (run c s0 ops) :=
  run_invariant (fun _ _ _ h hx => moneyCovered_exec h hx) h0 ops

example : Covered (run cfg start [.ext (.signed alice) (.balTransfer carol 995), .mint bob 7, .slash bob 100]) :=
  C69_covered cfg start _ start_balanced.covered

/-- C69: and if the issuance is the sum of all balances, it stays so. -/
theorem C69_balanced (c : Cfg) (s0 : Chain) (ops : List Op) (h0 : Balanced s0) : Balanced (run c s0 ops) :=
  run_invariant (fun _ _ _ h hx => balanced_exec h hx) h0 ops

example : Balanced (run cfg start [.ext (.signed alice) (.balTransfer carol 995), .mint bob 7, .slash bob 100]) :=
  C69_balanced cfg start _ start_balanced

/-- C69: over a history of extrinsics, at most the amounts of the claims paid out are added to the issuance. -/
theorem C69_history (c : Cfg) (s0 : Chain) (ops : List Op) (hops : ∀ op ∈ ops, op.isExt = true) :
    (run c s0 ops).bal.issuance + paidOut s0 ≤ s0.bal.issuance + paidOut (run c s0 ops) := by
  refine run_invariant' (c := c) (Q := fun op => op.isExt = true)
    (P := fun s => s.bal.issuance + paidOut s0 ≤ s0.bal.issuance + paidOut s) ?_ (Nat.le_refl _) ops hops
  intro s s' op hq ih hx
  have hmono : paidOut s ≤ paidOut s' := by
    rcases claims_effect hx with ⟨hcl, hop⟩ | ⟨g, dest, due, auth, hc, ht, hp, total, claims, _, _, events⟩ |
      ⟨who, v, vest, st, hop, total, claims, _, _, _, events⟩ | ⟨o', old, new, p, hop, auth, rfl⟩
    · simp [paidOut, hcl]
    · simp [paidOut, events]
    · simp [paidOut, events]
    · exact Nat.le_refl _
  cases op with
  | ext o k =>
    by_cases hi : s.bal.issuance < s'.bal.issuance
    · obtain ⟨dest, g, n, hev, _, h2, _⟩ := C69_increase c s s' o k hx hi
      have : paidOut s' = n + paidOut s := by simp [paidOut, hev, ClEvent.amount]
      omega
    · omega
  | _ => simp [Op.isExt] at hq

example : (∀ op ∈ [Op.ext .root (.claims (.mintClaim (Arr.fill 20 64) 100 none none)), .ext .none (.claims (.claim carol (Arr.zero 65)))], op.isExt = true) ∧
    paidOut (run cfg start [Op.ext .root (.claims (.mintClaim (Arr.fill 20 64) 100 none none)), .ext .none (.claims (.claim carol (Arr.zero 65)))]) = 100 := by decide +kernel

example : Balanced start ∧ (exec cfg start (.ext (.signed alice) (.balTransfer carol 995))).isOk = true ∧
    (step cfg start (.ext (.signed alice) (.balTransfer carol 995))).bal.issuance = 1495 :=
  ⟨start_balanced, by decide +kernel, by decide +kernel⟩

end Verif
