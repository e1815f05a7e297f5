import Verif.Proofs.Ledger
import Verif.Props.Frame

/-!
# Accounting properties over histories: C98, C99
-/

namespace Verif

open Demo EnclaveBridge

/-! ### C98 Balances follow from the accepted operations -/

/-- C98: an account never has more than it had, plus what accepted operations brought, minus what they took. -/
theorem C98_no_more (c : Cfg) (s0 : Chain) (ops : List Op) (a : AccountId) :
    (run c s0 ops).bal.free a + totalDebited a (accepted c s0 ops) ≤
      s0.bal.free a + totalCredited c a (accepted c s0 ops) := by
  refine history_induction (P := fun s acc => s.bal.free a + totalDebited a acc ≤ s0.bal.free a + totalCredited c a acc)
    (Nat.le_refl _) ?_ ops
  intro s s' op acc ih hx
  have := (account_effect hx a).1
  simp only [totalDebited, totalCredited, List.map_append, List.sum_append, List.map_cons, List.map_nil, List.sum_cons,
    List.sum_nil, Nat.add_zero] at ih ⊢
  omega

example : (run cfg start bridgeHistory).bal.free bob + 100 = 500 ∧
    totalDebited bob (accepted cfg start bridgeHistory) = 100 ∧ totalCredited cfg carol (accepted cfg start bridgeHistory) = 60 := by
  decide +kernel

/-- C98: and never less, except for less than an existential deposit for each operation that moved money of the account
(remainders below the existential deposit are burned, payments below it do not create an account), as long as the amounts
fit into the balance type. -/
theorem C98_no_less (c : Cfg) (s0 : Chain) (ops : List Op) (a : AccountId) (h0 : Covered s0)
    (hfit : ∀ p ∈ accepted c s0 ops, p.1.bal.issuance + credited c a p ≤ c.balMax) :
    s0.bal.free a + totalCredited c a (accepted c s0 ops) ≤
      (run c s0 ops).bal.free a + totalDebited a (accepted c s0 ops) +
        c.ed * (movements c a (accepted c s0 ops)).length := by
  suffices h : (∀ p ∈ accepted c s0 ops, p.1.bal.issuance + credited c a p ≤ c.balMax) →
      Covered (run c s0 ops) ∧ s0.bal.free a + totalCredited c a (accepted c s0 ops) ≤
        (run c s0 ops).bal.free a + totalDebited a (accepted c s0 ops) +
          c.ed * (movements c a (accepted c s0 ops)).length from (h hfit).2
  refine history_induction (P := fun s acc => (∀ p ∈ acc, p.1.bal.issuance + credited c a p ≤ c.balMax) →
    Covered s ∧ s0.bal.free a + totalCredited c a acc ≤
      s.bal.free a + totalDebited a acc + c.ed * (movements c a acc).length)
    (fun _ => ⟨h0, Nat.le_add_right _ _⟩) ?_ ops
  intro s s' op acc ih hx hf
  obtain ⟨hcov, ih⟩ := ih (fun p hp => hf p (List.mem_append_left _ hp))
  refine ⟨moneyCovered_exec hcov hx, ?_⟩
  have hle : s.bal.free a ≤ s.bal.issuance := by
    have := hcov [a] (by simp)
    simpa [sumFree] using this
  have := (account_effect hx a).2 hle (hf (s, op) (by simp))
  simp only [totalDebited, totalCredited, movements, List.map_append, List.sum_append, List.map_cons, List.map_nil,
    List.sum_cons, List.sum_nil, Nat.add_zero, List.filter_append, List.length_append, List.filter_cons,
    List.filter_nil] at ih ⊢
  by_cases hc : credited c a (s, op) ≠ 0 ∨ debited a (s, op) ≠ 0
  · rw [if_pos hc] at this
    rw [if_pos (by simpa using hc)]
    simp only [List.length_cons, List.length_nil, Nat.mul_add]
    omega
  · rw [if_neg hc] at this
    rw [if_neg (by simpa using hc)]
    simp only [List.length_nil, Nat.add_zero]
    omega

/-- The movements of Carol's account in a history of the bridge: she is paid 60, sends 55 on, and the remaining 5 are
burned. -/
example : Covered start ∧
    let ops := bridgeHistory ++ [.ext (.signed carol) (.balTransfer bob 55)]
    (∀ p ∈ accepted cfg start ops, p.1.bal.issuance + credited cfg carol p ≤ cfg.balMax) ∧
    totalCredited cfg carol (accepted cfg start ops) = 60 ∧ totalDebited carol (accepted cfg start ops) = 55 ∧
    (movements cfg carol (accepted cfg start ops)).length = 2 ∧ (run cfg start ops).bal.free carol = 0 :=
  ⟨start_balanced.covered, by decide +kernel⟩

/-! ### C99 A vault pays out what was paid in -/

/-- How one accepted operation affects what the events say about a shard. -/
theorem vault_effect {c : Cfg} {s s' : Chain} {op : Op} (h : exec c s op = .ok s') (shard : ShardId) :
    (unshieldedFrom s' shard ≤ unshieldedFrom s shard + debited shard (s, op)) ∧
    (¬ op.paysInto shard → shieldedInto s' shard = shieldedInto s shard + credited c shard (s, op)) ∧
    (shieldedInto s' shard ≤ shieldedInto s shard + credited c shard (s, op)) ∧
    ((∀ k, op ≠ .ext (.signed shard) k) → (∀ n, op ≠ .slash shard n) →
      unshieldedFrom s' shard = unshieldedFrom s shard + debited shard (s, op)) := by
  have same : unshieldedFrom s' shard = unshieldedFrom s shard → shieldedInto s' shard = shieldedInto s shard →
      ((∀ k, op ≠ .ext (.signed shard) k) → (∀ n, op ≠ .slash shard n) → debited shard (s, op) = 0) →
      (¬ op.paysInto shard → credited c shard (s, op) = 0) →
    (unshieldedFrom s' shard ≤ unshieldedFrom s shard + debited shard (s, op)) ∧
    (¬ op.paysInto shard → shieldedInto s' shard = shieldedInto s shard + credited c shard (s, op)) ∧
    (shieldedInto s' shard ≤ shieldedInto s shard + credited c shard (s, op)) ∧
    ((∀ k, op ≠ .ext (.signed shard) k) → (∀ n, op ≠ .slash shard n) →
      unshieldedFrom s' shard = unshieldedFrom s shard + debited shard (s, op)) := by
    intro e1 e2 h1 h2
    rw [e1, e2]
    exact ⟨Nat.le_add_right _ _, fun hp => by rw [h2 hp]; rfl, Nat.le_add_right _ _, fun k1 k2 => by rw [h1 k1 k2]; rfl⟩
  have nobr : Part.bridge ∉ op.parts →
      unshieldedFrom s' shard = unshieldedFrom s shard ∧ shieldedInto s' shard = shieldedInto s shard := fun hp => by
    have : s'.br = s.br := exec_frame h .bridge hp
    unfold unshieldedFrom shieldedInto
    rw [this]
    exact ⟨rfl, rfl⟩
  cases op with
  | ext o k =>
    cases k with
    | shieldFunds x inc v =>
      obtain ⟨b, bb, rfl, hb, rfl⟩ := shieldFunds_ok.mp h
      simp only [unshieldedFrom, shieldedInto, List.map_cons, List.sum_cons, BrEvent.unshielded, BrEvent.shielded,
        credited, debited]
      refine ⟨by omega, fun _ => by omega, by omega, fun hk _ => ?_⟩
      have : ¬ b = shard := fun e => hk _ (by rw [e])
      simp [this]
    | unshieldFunds x ben am g =>
      obtain ⟨b, e, l, ⟨rfl, h1, h2, _⟩, (⟨h5, bb, n, hb, _, rfl⟩ | ⟨k, n, h5, _, rfl⟩)⟩ := unshieldFunds_ok.mp h
      · simp only [unshieldedFrom, shieldedInto, List.map_cons, List.sum_cons, BrEvent.unshielded, BrEvent.shielded,
          credited, debited, Op.paysInto, h5, and_true]
        refine ⟨by omega, fun hp => ?_, by omega, fun _ _ => by omega⟩
        rw [if_neg hp]; omega
      · exact same rfl rfl (fun _ _ => by simp [debited, h5]) (fun _ => by simp [credited, h5])
    | invoke x cy => 
      obtain ⟨_, rfl, rfl⟩ := (invoke_ok (cy := cy)).mp h
      exact same (Nat.zero_add _) (Nat.zero_add _) (fun _ _ => rfl) (fun _ => rfl)
    | confirmProcessedParentchainBlock x bh bn root =>
      obtain ⟨_, _, _, _, rfl⟩ := confirmProcessed_ok.mp h
      exact same (Nat.zero_add _) (Nat.zero_add _) (fun _ _ => by cases o <;> rfl) (fun _ => by cases o <;> rfl)
    | publishHash hh topics data =>
      obtain ⟨_, _, _, _, _, _, _, _, _, rfl⟩ := publishHash_ok.mp h
      exact same (Nat.zero_add _) (Nat.zero_add _) (fun _ _ => by cases o <;> rfl) (fun _ => by cases o <;> rfl)
    | updateShardConfig x cfg d =>
      rcases updateShardConfig_ok.mp h with ⟨_, rfl⟩ | ⟨_, _, _, _, _, _, _, _, rfl⟩ <;>
      exact same (Nat.zero_add _) (Nat.zero_add _) (fun _ _ => by cases o <;> rfl) (fun _ => by cases o <;> rfl)
    | purgeEnclave x a =>
      obtain ⟨_, rfl, _, _, rfl⟩ := purgeEnclave_ok.mp h
      exact same (Nat.zero_add _) (Nat.zero_add _) (fun _ _ => rfl) (fun _ => rfl)
    | confirmImportedSidechainBlock x anc cand =>
      obtain ⟨_, _, _, _, _, _, ⟨_, rfl⟩ | ⟨_, _, rfl⟩⟩ := Sidechain.confirmImported_ok.mp h <;>
      exact same rfl rfl (fun _ _ => by cases o <;> rfl) (fun _ => by cases o <;> rfl)
    | balTransfer dst v =>
      refine same (nobr (by simp [Op.parts, Call.parts])).1 (nobr (by simp [Op.parts, Call.parts])).2 (fun hk _ => ?_)
        (fun hp => ?_)
      · cases o with
        | signed b =>
          have : ¬ b = shard := fun e => hk _ (by rw [e])
          simp [debited, this]
        | _ => rfl
      · simp only [Op.paysInto] at hp
        simp [credited, hp]
    | claims k =>
      have hb := nobr (by cases k <;> simp [Op.parts, Call.parts])
      refine same hb.1 hb.2 (fun _ _ => by cases o <;> rfl) (fun hp => ?_)
      cases k with
      | claim d sg => simp only [Op.paysInto] at hp; simp [credited, hp]
      | claimAttest d sg st => simp only [Op.paysInto] at hp; simp [credited, hp]
      | attest st =>
        simp only [Op.paysInto] at hp
        cases o with
        | signed b =>
          have : ¬ b = shard := fun e => hp (by rw [e])
          simp [credited, this]
        | _ => rfl
      | _ => rfl
    | _ =>
      have hb := nobr (by simp [Op.parts, Call.parts])
      exact same hb.1 hb.2 (fun _ _ => by cases o <;> rfl) (fun _ => rfl)
  | mint x n =>
    have hb := nobr (by simp [Op.parts])
    refine same hb.1 hb.2 (fun _ _ => rfl) (fun hp => ?_)
    simp only [Op.paysInto] at hp
    simp [credited, hp]
  | slash x n =>
    have hb := nobr (by simp [Op.parts])
    refine same hb.1 hb.2 (fun _ hs => ?_) (fun _ => rfl)
    have : ¬ x = shard := fun e => hs n (by rw [e])
    simp [debited, this]
  | _ =>
    have hb := nobr (by simp [Op.parts])
    exact same hb.1 hb.2 (fun _ _ => rfl) (fun _ => rfl)

/-- C99: in every history, what was unshielded from a shard plus what is left in its vault is at most what was in the vault
plus what was shielded, if nothing else was paid into the vault. The hypothesis is met by `bridgeHistory`, see the last
example below. -/
theorem C99_solvent (c : Cfg) (s0 : Chain) (ops : List Op) (shard : ShardId)
    (hops : ∀ op ∈ ops, ¬ op.paysInto shard) :
    unshieldedFrom (run c s0 ops) shard + (run c s0 ops).bal.free shard + shieldedInto s0 shard ≤
      unshieldedFrom s0 shard + s0.bal.free shard + shieldedInto (run c s0 ops) shard := by
  refine run_invariant' (c := c) (Q := fun op => ¬ op.paysInto shard)
    (P := fun s => unshieldedFrom s shard + s.bal.free shard + shieldedInto s0 shard ≤
      unshieldedFrom s0 shard + s0.bal.free shard + shieldedInto s shard) ?_ (by omega) ops hops
  intro s s' op hq ih hx
  have h1 := (account_effect hx shard).1
  have h2 := (vault_effect hx shard).1
  have h3 := (vault_effect hx shard).2.1 hq
  omega

/-- C99: payments from elsewhere count as well, nothing else does. -/
theorem C99_solvent_all (c : Cfg) (s0 : Chain) (ops : List Op) (shard : ShardId) :
    unshieldedFrom (run c s0 ops) shard + (run c s0 ops).bal.free shard ≤
      unshieldedFrom s0 shard + s0.bal.free shard + totalCredited c shard (accepted c s0 ops) := by
  refine history_induction (P := fun s acc => unshieldedFrom s shard + s.bal.free shard ≤
      unshieldedFrom s0 shard + s0.bal.free shard + totalCredited c shard acc) (Nat.le_add_right _ _) ?_ ops
  intro s s' op acc ih hx
  have h1 := (account_effect hx shard).1
  have h2 := (vault_effect hx shard).1
  simp only [totalCredited, List.map_append, List.sum_append, List.map_cons, List.map_nil, List.sum_cons,
    List.sum_nil, Nat.add_zero] at ih ⊢
  omega

/-- Money may also come in by an ordinary transfer to the account of the shard. -/
example : totalCredited cfg shard7 (accepted cfg start (bridgeHistory ++ [.ext (.signed bob) (.balTransfer shard7 25)])) = 125 ∧
    (run cfg start (bridgeHistory ++ [.ext (.signed bob) (.balTransfer shard7 25)])).bal.free shard7 = 65 := by decide +kernel

/-- C99: and at least that, except for less than an existential deposit per movement, if the vault is not slashed and
nobody has its key. -/
theorem C99_nothing_lost (c : Cfg) (s0 : Chain) (ops : List Op) (shard : ShardId) (h0 : Covered s0)
    (hkey : ∀ op ∈ ops, (∀ k, op ≠ .ext (.signed shard) k) ∧ ∀ n, op ≠ .slash shard n)
    (hfit : ∀ p ∈ accepted c s0 ops, p.1.bal.issuance + credited c shard p ≤ c.balMax) :
    unshieldedFrom s0 shard + s0.bal.free shard + shieldedInto (run c s0 ops) shard ≤
      unshieldedFrom (run c s0 ops) shard + (run c s0 ops).bal.free shard + shieldedInto s0 shard +
        c.ed * (movements c shard (accepted c s0 ops)).length := by
  have key : unshieldedFrom (run c s0 ops) shard = unshieldedFrom s0 shard + totalDebited shard (accepted c s0 ops) := by
    clear hfit
    induction ops generalizing s0 with
    | nil => rfl
    | cons op ops ih =>
      cases hx : exec c s0 op with
      | error e =>
        rw [run_cons, step_of_error hx, accepted_cons_error hx]
        exact ih s0 h0 (fun op hop => hkey op (List.mem_cons_of_mem _ hop))
      | ok s' =>
        rw [run_cons, step_of_ok hx, accepted_cons_ok hx, ih s' (moneyCovered_exec h0 hx)
          (fun op hop => hkey op (List.mem_cons_of_mem _ hop))]
        have hk := hkey op (by simp)
        rw [(vault_effect hx shard).2.2.2 hk.1 hk.2]
        simp only [totalDebited, List.map_cons, List.sum_cons]
        omega
  have h1 := C98_no_less c s0 ops shard h0 hfit
  have h2 : shieldedInto (run c s0 ops) shard ≤ shieldedInto s0 shard + totalCredited c shard (accepted c s0 ops) := by
    refine history_induction (P := fun s acc => shieldedInto s shard ≤ shieldedInto s0 shard + totalCredited c shard acc)
      (Nat.le_refl _) ?_ ops
    intro s s' op acc ih hx
    have := (vault_effect hx shard).2.2.1
    simp only [totalCredited, List.map_append, List.sum_append, List.map_cons, List.map_nil, List.sum_cons,
      List.sum_nil, Nat.add_zero] at ih ⊢
    omega
  omega

/-- Bob shields 100, 60 of it are unshielded once, 40 are left. -/
example : (∀ op ∈ bridgeHistory, ¬ op.paysInto shard7) ∧
    (∀ op ∈ bridgeHistory, (∀ k, op ≠ .ext (.signed shard7) k) ∧ ∀ n, op ≠ .slash shard7 n) ∧
    shieldedInto (run cfg start bridgeHistory) shard7 = 100 ∧ unshieldedFrom (run cfg start bridgeHistory) shard7 = 60 ∧
    (run cfg start bridgeHistory).bal.free shard7 = 40 := by
  refine ⟨?_, ?_, by decide +kernel, by decide +kernel, by decide +kernel⟩
  · intro op hop
    simp only [bridgeHistory, List.mem_cons, List.not_mem_nil, or_false] at hop
    rcases hop with rfl | rfl | rfl | rfl | rfl <;> simp only [enroll, shield, unshield, Op.paysInto] <;> decide
  · intro op hop
    simp only [bridgeHistory, List.mem_cons, List.not_mem_nil, or_false] at hop
    have h1 : ¬ alice = shard7 := by decide
    have h2 : ¬ bob = shard7 := by decide
    have h3 : ¬ carol = shard7 := by decide
    rcases hop with rfl | rfl | rfl | rfl | rfl <;> simp only [enroll, shield, unshield, ne_eq, Op.ext.injEq,
      Origin.signed.injEq, h1, h2, h3, false_and, not_false_eq_true, implies_true, reduceCtorEq, and_self]

end Verif
