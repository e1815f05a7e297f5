import Verif.Model.Fees
import Verif.Props.Claims

/-!
# Properties of fees: C96, C97
-/

namespace Verif

open Demo Claims

/-! ### C96 A transaction whose call fails costs a fee -/

/-- The full claim: an included transaction that fails costs its signer a fee. It is false for the code (see
`C96_refuted`). -/
def C96_Full : Prop :=
  ∀ (c : Cfg) (s : Chain) (t : Tx) (r : TxOutcome), t.apply c s = some r → r.succeeded = false → r.fee = true

/-- Anybody can have the root call that purges an enclave from a shard refused, free of charge. -/
theorem C96_refuted : ¬ C96_Full := by
  intro h
  have := h cfg start (.signed bob (.purgeEnclave (Arr.zero 32) alice)) ⟨start, false, false⟩ rfl rfl
  simp at this

/-- Outcome of an included transaction. -/
theorem apply_cases {c : Cfg} {s : Chain} {t : Tx} {r : TxOutcome} (h : t.apply c s = some r) :
    t.included c s = true ∧
    ((dispatch c s t.origin t.call = .ok r.post ∧ r.succeeded = true ∧
        r.fee = (!t.isBare && !t.call.declaredFree && !t.call.waivesFee)) ∨
      ((∃ e, dispatch c s t.origin t.call = .error e) ∧ r.post = s ∧ r.succeeded = false ∧
        r.fee = (!t.isBare && !t.call.declaredFree))) := by
  unfold Tx.apply at h
  by_cases hi : t.included c s = true
  · rw [if_pos hi] at h
    refine ⟨hi, ?_⟩
    cases hd : dispatch c s t.origin t.call with
    | ok s' => rw [hd] at h; simp only [Option.some.injEq] at h; subst h; exact .inl ⟨rfl, rfl, rfl⟩
    | error e => rw [hd] at h; simp only [Option.some.injEq] at h; subst h; exact .inr ⟨⟨e, rfl⟩, rfl, rfl, rfl⟩
  · rw [if_neg hi] at h; simp at h

theorem isOk_iff {ε α : Type} {x : Except ε α} : x.isOk = true ↔ ∃ v, x = .ok v := by
  cases x with
  | ok a => exact ⟨fun _ => ⟨a, rfl⟩, fun _ => rfl⟩
  | error e => exact ⟨fun h => by simp [Except.isOk, Except.toBool] at h, fun ⟨_, h⟩ => by simp at h⟩

theorem declaredFree_iff {k : Call} :
    k.declaredFree = true ↔ (∃ shard a, k = .purgeEnclave shard a) ∨ ∃ st, k = .claims (.attest st) := by
  unfold Call.declaredFree
  split <;> simp_all

theorem waivesFee_iff {k : Call} : k.waivesFee = true ↔ ∃ old new p, k = .claims (.moveClaim old new p) := by
  unfold Call.waivesFee
  split <;> simp_all

/-- C96, partial: an included transaction that fails changes nothing, and is free only if it is (a) the purge of an
enclave from a shard, by anybody, (b) an attest call of an account for which somebody recorded a preclaim, with the right
statement, or (c) a claim of an Ethereum signature for an open claim. Missing: a fee in these three cases. -/
theorem C96_free_failures_partial (c : Cfg) (s : Chain) (t : Tx) (r : TxOutcome) (h : t.apply c s = some r)
    (hf : r.succeeded = false) :
    r.post = s ∧
    (r.fee = false ↔
      (∃ who shard a, t = .signed who (.purgeEnclave shard a)) ∨
      (∃ who st g, t = .signed who (.claims (.attest st)) ∧ s.cl.preclaims who = some g ∧
        ∀ k, s.cl.signing g = some k → k.statement = st) ∨
      (∃ dest sig g st n, (t = .bare (.claims (.claim dest sig)) ∧ st = [] ∨
          t = .bare (.claims (.claimAttest dest sig st))) ∧
        SignedBy c g sig dest st ∧ s.cl.claims g = some n)) := by
  obtain ⟨hi, ⟨_, hs, _⟩ | ⟨⟨e, he⟩, hp, _, hfee⟩⟩ := apply_cases h
  · rw [hs] at hf; simp at hf
  refine ⟨hp, ?_⟩
  rw [hfee]
  cases t with
  | signed who k =>
    simp only [Tx.isBare, Bool.not_false, Bool.true_and, Bool.not_eq_false', Tx.call, declaredFree_iff]
    constructor
    · rintro (⟨shard, a, rfl⟩ | ⟨st, rfl⟩)
      · exact .inl ⟨_, _, _, rfl⟩
      · obtain ⟨g, hg, hst⟩ := (C56_prevalidate_iff s who st).mp (isOk_iff.mp hi)
        exact .inr (.inl ⟨who, st, g, rfl, hg, hst⟩)
    · rintro (⟨_, shard, a, ht⟩ | ⟨_, st, _, ht, _⟩ | ⟨_, _, _, _, _, ⟨ht, _⟩ | ht, _⟩)
      · simp only [Tx.signed.injEq] at ht; exact .inl ⟨_, _, ht.2⟩
      · simp only [Tx.signed.injEq] at ht; exact .inr ⟨_, ht.2⟩
      · simp at ht
      · simp at ht
  | bare k =>
    simp only [Tx.isBare, Bool.not_true, Bool.false_and, true_iff]
    refine .inr (.inr ?_)
    cases k with
    | claims k =>
      rcases (C52_validate_iff c s k).mp (isOk_iff.mp hi) with ⟨d, sg, g, rfl, h1, h2, _⟩ | ⟨d, sg, g, kd, rfl, h1, h2, _⟩
      · obtain ⟨n, hn⟩ := Option.ne_none_iff_exists'.mp h2
        exact ⟨d, sg, g, [], n, .inl ⟨rfl, rfl⟩, h1, hn⟩
      · obtain ⟨n, hn⟩ := Option.ne_none_iff_exists'.mp h2
        exact ⟨d, sg, g, kd.statement, n, .inr rfl, h1, hn⟩
    | _ => simp [Tx.included] at hi

/-- All three kinds of free failures exist: an unauthorised purge; an attest call after the claim was taken with the
Ethereum key; a claim with a vesting schedule for an account that has one already. -/
example :
    ((Tx.signed bob (.purgeEnclave (Arr.zero 32) alice)).apply cfg start).map (fun r => (r.succeeded, r.fee))
      = some (false, false) ∧
    ((Tx.signed alice (.claims (.attest []))).apply cfg (run cfg { start with cl := { start.cl with
        preclaims := upd start.cl.preclaims alice (some ethA) } } [mintOp ethA 100 none none, claimOp alice])).map
          (fun r => (r.succeeded, r.fee)) = some (false, false) ∧
    ((Tx.bare (.claims (.claim carol anySig))).apply cfg (run cfg start
      [mintOp ethA 100 (some ⟨40, 2, 10⟩) none, claimOp carol, mintOp ethA 100 (some ⟨40, 2, 10⟩) none])).map
          (fun r => (r.succeeded, r.fee)) = some (false, false) := by
  decide +kernel

/-- A failing transfer costs a fee. -/
example : ((Tx.signed bob (.balTransfer alice (10 ^ 30))).apply cfg start).map (fun r => (r.succeeded, r.fee))
    = some (false, true) := by
  decide +kernel

/-! ### C97 Free transactions only collect or move claims -/

/-- The transaction paid out the claim of the address to the account, who is the signer or was named in a message signed
with the key of the address. -/
def Collects (c : Cfg) (s s' : Chain) (t : Tx) (g : EthAddr) (dest : AccountId) (n : Nat) : Prop :=
  s.cl.claims g = some n ∧ s'.cl.claims g = none ∧ s'.cl.events = .claimed dest g n :: s.cl.events ∧
  ((∃ sig, t = .bare (.claims (.claim dest sig)) ∧ SignedBy c g sig dest []) ∨
   (∃ sig st, t = .bare (.claims (.claimAttest dest sig st)) ∧ SignedBy c g sig dest st) ∨
   (∃ st, t = .signed dest (.claims (.attest st)) ∧ s.cl.preclaims dest = some g))

/-- C97: an included transaction without fee has no effect, collects an open claim, or moves a claim on behalf of an
account that the runtime allows to move claims. -/
theorem C97_free_effects (c : Cfg) (s : Chain) (t : Tx) (r : TxOutcome) (h : t.apply c s = some r)
    (hf : r.fee = false) :
    r.post = s ∨ (∃ g dest n, Collects c s r.post t g dest n) ∨
    (∃ who old new p, t = .signed who (.claims (.moveClaim old new p)) ∧ c.moveClaimOrigin (.signed who) = true) := by
  obtain ⟨hi, ⟨hd, _, hfee⟩ | ⟨_, hp, _⟩⟩ := apply_cases h
  · right
    rw [hf] at hfee
    have hx : exec c s (.ext t.origin t.call) = .ok r.post := hd
    cases claims_effect hx with
    | same hsame hop =>
      exfalso
      cases t with
      | signed who k =>
        simp only [Tx.isBare, Tx.call, Bool.not_false, Bool.true_and] at hfee
        have h1 : k.declaredFree = true ∨ k.waivesFee = true := by
          cases h1 : k.declaredFree
          · cases h2 : k.waivesFee
            · rw [h1, h2] at hfee; exact absurd hfee (by decide)
            · exact .inr rfl
          · exact .inl rfl
        rcases h1 with h1 | h1
        · rcases declaredFree_iff.mp h1 with ⟨shard, a, rfl⟩ | ⟨st, rfl⟩
          · obtain ⟨_, ho, _⟩ := EnclaveBridge.purgeEnclave_ok.mp hd; exact Origin.noConfusion ho
          · simp [Op.parts, Call.parts, Tx.call] at hop
        · obtain ⟨_, _, _, rfl⟩ := waivesFee_iff.mp h1
          simp [Op.parts, Call.parts, Tx.call] at hop
      | bare k =>
        cases k with
        | claims k => cases k <;> simp [Op.parts, Call.parts, Tx.call] at hop
        | _ => simp [Tx.included] at hi
    | paid g dest due auth hc ht hp total claims vesting signing events =>
      refine .inl ⟨g, dest, due, hc, by rw [claims, upd_same], events, ?_⟩
      rcases auth with ⟨sig, hop, h1, _⟩ | ⟨sig, st, hop, h1, _⟩ | ⟨st, hop, h1, _⟩ <;>
        simp only [Op.ext.injEq] at hop
      · cases t with
        | signed => simp [Tx.origin] at hop
        | bare k => exact .inl ⟨sig, by rw [← hop.2]; rfl, h1⟩
      · cases t with
        | signed => simp [Tx.origin] at hop
        | bare k => exact .inr (.inl ⟨sig, st, by rw [← hop.2]; rfl, h1⟩)
      · cases t with
        | bare k => simp [Tx.origin] at hop
        | signed who k =>
          simp only [Tx.origin, Origin.signed.injEq] at hop
          exact .inr (.inr ⟨st, by rw [← hop.2, hop.1]; rfl, h1⟩)
    | mint who v vest st hop =>
      simp only [Op.ext.injEq] at hop
      cases t <;> simp [Tx.origin] at hop
    | move o old new p hop auth hs =>
      simp only [Op.ext.injEq] at hop
      cases t with
      | signed who k =>
        obtain ⟨rfl, hk⟩ := hop
        simp only [Tx.call] at hk
        subst hk
        exact .inr ⟨who, old, new, p, rfl, auth.resolve_right (by simp [Tx.origin])⟩
      | bare k =>
        obtain ⟨_, hk⟩ := hop
        simp only [Tx.call] at hk
        subst hk
        simp [Tx.included, validateUnsigned, Bind.bind, Except.bind, Except.isOk, Except.toBool] at hi
  · exact .inl hp

example : ((Tx.bare (.claims (.claim carol anySig))).apply cfg (run cfg start [mintOp ethA 100 none none])).map
      (fun r => (r.fee, r.post.cl.claims ethA)) = some (false, none) ∧
    ((Tx.signed bob (.purgeEnclave (Arr.zero 32) alice)).apply cfg start).map (·.fee) = some false := by decide +kernel

/-- C97: without a preclaim, without a claimable signature and without the right to move claims, nothing is free but
a refused purge. -/
theorem C97_outsider_pays (c : Cfg) (s : Chain) (who : AccountId) (k : Call) (r : TxOutcome)
    (h : (Tx.signed who k).apply c s = some r) (hp : s.cl.preclaims who = none)
    (hm : c.moveClaimOrigin (.signed who) = false) (hk : ∀ shard a, k ≠ .purgeEnclave shard a) : r.fee = true := by
  obtain ⟨hi, hr⟩ := apply_cases h
  have hd : k.declaredFree = false := by
    cases hd : k.declaredFree with
    | false => rfl
    | true =>
      rcases declaredFree_iff.mp hd with ⟨shard, a, rfl⟩ | ⟨st, rfl⟩
      · exact absurd rfl (hk shard a)
      · obtain ⟨g, hg, _⟩ := (C56_prevalidate_iff s who st).mp (isOk_iff.mp hi)
        rw [hp] at hg; simp at hg
  rcases hr with ⟨hx, _, hfee⟩ | ⟨_, _, _, hfee⟩
  · rw [hfee]
    simp only [Tx.isBare, Tx.call, hd, Bool.not_false, Bool.true_and]
    cases hw : k.waivesFee with
    | false => rfl
    | true =>
      obtain ⟨old, new, p, rfl⟩ := waivesFee_iff.mp hw
      obtain ⟨ho, _⟩ := moveClaim_ok.mp hx
      simp [Tx.origin, hm] at ho
  · rw [hfee]
    simp [Tx.isBare, Tx.call, hd]

example : start.cl.preclaims alice = none ∧ cfg.moveClaimOrigin (.signed alice) = false ∧
    ((Tx.signed alice (.claims (.moveClaim ethA ethB none))).apply cfg start).map (fun r => (r.succeeded, r.fee)) =
      some (false, true) := by decide +kernel

/-- A collected claim is free, a bond is not. -/
example :
    ((Tx.bare (.claims (.claim carol anySig))).apply cfg (run cfg start [mintOp ethA 100 none none])).map
      (fun r => (r.succeeded, r.fee)) = some (true, false) ∧
    ((Tx.signed alice (.bond 500)).apply cfg start).map (fun r => (r.succeeded, r.fee)) = some (true, true) := by
  decide +kernel

end Verif
