import Verif.Props.Claims

/-!
# Claims in the transaction pool: C144 to C146
-/

namespace Verif

open Demo Claims

/-- What the pool keeps of an accepted claim. -/
def pooled (g : EthAddr) : ValidTransaction :=
  { priority := 100, requires := [], provides := [providesTag g], longevity := 2 ^ 64 - 1, propagate := true }

theorem validate_claim {c : Cfg} {s : Chain} {g : EthAddr} {sig : EthSig} {dest : AccountId}
    (h : SignedBy c g sig dest []) : validateUnsigned c s (.claim dest sig) =
      if s.cl.claims g = none then .error (.custom 1)
      else if s.cl.signing g = none then .ok (pooled g) else .error (.custom 3) := by
  have h' := (ethRecover_iff ..).mpr h
  cases hc : s.cl.claims g <;> cases hs : s.cl.signing g <;>
    simp [validateUnsigned, h', hc, hs, okOr, ensure, pooled, Bind.bind, Except.bind, pure, Except.pure,
      signerHasNoClaimCode, invalidStatementCode]

theorem validate_claimAttest {c : Cfg} {s : Chain} {g : EthAddr} {sig : EthSig} {dest : AccountId} {st : Bytes}
    (h : SignedBy c g sig dest st) : validateUnsigned c s (.claimAttest dest sig st) =
      if s.cl.claims g = none then .error (.custom 1)
      else if (s.cl.signing g).map (·.statement) = some st then .ok (pooled g) else .error (.custom 3) := by
  have h' := (ethRecover_iff ..).mpr h
  cases hc : s.cl.claims g with
  | none =>
    simp [validateUnsigned, h', hc, okOr, ensure, Bind.bind, Except.bind, pure, Except.pure, signerHasNoClaimCode]
  | some v =>
    cases hs : s.cl.signing g with
    | none =>
      simp [validateUnsigned, h', hc, hs, okOr, ensure, pooled, Bind.bind, Except.bind, pure, Except.pure,
        invalidStatementCode]
    | some k =>
      by_cases hk : k.statement = st <;>
      simp [validateUnsigned, h', hc, hs, hk, Claims.toText_eq, okOr, ensure, pooled, Bind.bind, Except.bind, pure, Except.pure,
        invalidStatementCode]

theorem validate_unsigned_nobody {c : Cfg} {s : Chain} {sig : EthSig} {dest : AccountId} :
    ((∀ g, ¬ SignedBy c g sig dest []) → validateUnsigned c s (.claim dest sig) = .error (.custom 0)) ∧
    ∀ st, (∀ g, ¬ SignedBy c g sig dest st) → validateUnsigned c s (.claimAttest dest sig st) = .error (.custom 0) := by
  have none {st : Bytes} (h : ∀ g, ¬ SignedBy c g sig dest st) : ethRecover c sig (toAsciiHex dest.val) st = .none := by
    cases hr : ethRecover c sig (toAsciiHex dest.val) st with
    | none => rfl
    | some g => exact absurd ((ethRecover_iff ..).mp hr) (h g)
  exact ⟨fun h => by simp [validateUnsigned, none h, okOr, Bind.bind, Except.bind, pure, Except.pure,
      invalidEthereumSignatureCode],
    fun st h => by simp [validateUnsigned, none h, okOr, Bind.bind, Except.bind, pure, Except.pure,
      invalidEthereumSignatureCode]⟩

/-! ### C144 The rejection code of a claim transaction tells the reason -/

/-- C144: an unsigned transaction is rejected as a wrong call exactly if it is neither a claim nor a claim with
statement; with code 0 exactly if the signature belongs to nobody; with code 1 exactly if the signer has no claim;
with code 3 exactly if the signer has a claim and the statement required for it is not the one made. There is no other
rejection, so code 2 never occurs. All codes occur in the example below. -/
theorem C144_unsigned (c : Cfg) (s : Chain) (k : ClaimsCall) (e : Invalid) :
    validateUnsigned c s k = .error e ↔
      (e = .call ∧ (∀ dest sig, k ≠ .claim dest sig) ∧ ∀ dest sig st, k ≠ .claimAttest dest sig st) ∨
      ((∃ dest sig, k = .claim dest sig ∧
          ((e = .custom 0 ∧ ∀ g, ¬ SignedBy c g sig dest []) ∨
            ∃ g, SignedBy c g sig dest [] ∧
              ((e = .custom 1 ∧ s.cl.claims g = none) ∨
                (e = .custom 3 ∧ s.cl.claims g ≠ none ∧ s.cl.signing g ≠ none)))) ∨
        ∃ dest sig st, k = .claimAttest dest sig st ∧
          ((e = .custom 0 ∧ ∀ g, ¬ SignedBy c g sig dest st) ∨
            ∃ g, SignedBy c g sig dest st ∧
              ((e = .custom 1 ∧ s.cl.claims g = none) ∨
                (e = .custom 3 ∧ s.cl.claims g ≠ none ∧ ∀ kind, s.cl.signing g = some kind → kind.statement ≠ st)))) := by
  cases k with
  | claim dest sig =>
    simp only [ClaimsCall.claim.injEq, reduceCtorEq, false_and, exists_false, or_false, ne_eq]
    rcases Classical.em (∃ g, SignedBy c g sig dest []) with ⟨g, hg⟩ | hn
    · rw [validate_claim hg]
      constructor
      · intro h
        refine .inr ⟨dest, sig, ⟨rfl, rfl⟩, .inr ⟨g, hg, ?_⟩⟩
        split at h
        · exact .inl ⟨by simpa using h.symm, ‹_›⟩
        · split at h
          · simp at h
          · exact .inr ⟨by simpa using h.symm, ‹_›, ‹_›⟩
      · rintro (⟨_, h, _⟩ | ⟨_, _, ⟨rfl, rfl⟩, ⟨_, h⟩ | ⟨g', hg', h⟩⟩)
        · exact absurd ⟨rfl, rfl⟩ (h dest sig)
        · exact absurd hg (h g)
        · rw [hg'.unique hg] at h
          rcases h with ⟨rfl, h⟩ | ⟨rfl, h1, h2⟩
          · rw [if_pos h]
          · rw [if_neg h1, if_neg h2]
    · rw [validate_unsigned_nobody.1 fun g hg => hn ⟨g, hg⟩]
      constructor
      · intro h
        exact .inr ⟨dest, sig, ⟨rfl, rfl⟩, .inl ⟨by simpa using h.symm, fun g hg => hn ⟨g, hg⟩⟩⟩
      · rintro (⟨_, h, _⟩ | ⟨_, _, ⟨rfl, rfl⟩, ⟨rfl, _⟩ | ⟨g', hg', _⟩⟩)
        · exact absurd ⟨rfl, rfl⟩ (h dest sig)
        · rfl
        · exact absurd ⟨g', hg'⟩ hn
  | claimAttest dest sig st =>
    simp only [ClaimsCall.claimAttest.injEq, reduceCtorEq, false_and, exists_false, false_or, ne_eq]
    rcases Classical.em (∃ g, SignedBy c g sig dest st) with ⟨g, hg⟩ | hn
    · rw [validate_claimAttest hg]
      have key : ¬ (s.cl.signing g).map (·.statement) = some st ↔ ∀ kind, s.cl.signing g = some kind → ¬ kind.statement = st := by
        cases s.cl.signing g <;> simp
      constructor
      · intro h
        refine .inr ⟨dest, sig, st, ⟨rfl, rfl, rfl⟩, .inr ⟨g, hg, ?_⟩⟩
        split at h
        · exact .inl ⟨by simpa using h.symm, ‹_›⟩
        · split at h
          · simp at h
          · exact .inr ⟨by simpa using h.symm, ‹_›, key.1 ‹_›⟩
      · rintro (⟨_, _, h⟩ | ⟨_, _, _, ⟨rfl, rfl, rfl⟩, ⟨_, h⟩ | ⟨g', hg', h⟩⟩)
        · exact absurd ⟨rfl, rfl, rfl⟩ (h dest sig st)
        · exact absurd hg (h g)
        · rw [hg'.unique hg] at h
          rcases h with ⟨rfl, h⟩ | ⟨rfl, h1, h2⟩
          · rw [if_pos h]
          · rw [if_neg h1, if_neg (key.2 h2)]
    · rw [validate_unsigned_nobody.2 st fun g hg => hn ⟨g, hg⟩]
      constructor
      · intro h
        exact .inr ⟨dest, sig, st, ⟨rfl, rfl, rfl⟩, .inl ⟨by simpa using h.symm, fun g hg => hn ⟨g, hg⟩⟩⟩
      · rintro (⟨_, _, h⟩ | ⟨_, _, _, ⟨rfl, rfl, rfl⟩, ⟨rfl, _⟩ | ⟨g', hg', _⟩⟩)
        · exact absurd ⟨rfl, rfl, rfl⟩ (h dest sig st)
        · rfl
        · exact absurd ⟨g', hg'⟩ hn
  | mintClaim _ _ _ _ => simp [validateUnsigned, Bind.bind, Except.bind, eq_comm]
  | attest _ => simp [validateUnsigned, Bind.bind, Except.bind, eq_comm]
  | moveClaim _ _ _ => simp [validateUnsigned, Bind.bind, Except.bind, eq_comm]

/-- C144: a signed transaction is rejected exactly if it attests and the sender has no claim (code 1), or the statement
required for it is not the one made (code 3). -/
theorem C144_signed (s : Chain) (who : AccountId) (k : ClaimsCall) (e : Invalid) :
    prevalidate s who k = .error e ↔ ∃ st, k = .attest st ∧
      ((e = .custom 1 ∧ s.cl.preclaims who = none) ∨
        (e = .custom 3 ∧ ∃ g kind, s.cl.preclaims who = some g ∧ s.cl.signing g = some kind ∧ kind.statement ≠ st)) := by
  cases k with
  | attest st =>
    simp only [ClaimsCall.attest.injEq, exists_eq_left']
    cases hp : s.cl.preclaims who with
    | none => simp [prevalidate, hp, okOr, Bind.bind, Except.bind, signerHasNoClaimCode, eq_comm]
    | some g =>
      cases hs : s.cl.signing g with
      | none => simp [prevalidate, hp, hs, okOr, Bind.bind, Except.bind]
      | some kind =>
        by_cases hk : kind.statement = st
        · simp [prevalidate, hp, hs, hk, Claims.toText_eq, okOr, ensure, Bind.bind, Except.bind]
        · have hk' : ¬ st = kind.statement := fun h => hk h.symm
          have : prevalidate s who (.attest st) = .error (.custom 3) := by
            simp [prevalidate, hp, hs, hk', Claims.toText_eq, okOr, ensure, Bind.bind, Except.bind, invalidStatementCode]
          rw [this]
          constructor
          · intro h
            exact .inr ⟨by simpa using h.symm, g, kind, rfl, hs, hk⟩
          · rintro (⟨_, h⟩ | ⟨rfl, _⟩)
            · simp at h
            · rfl
  | _ => simp [prevalidate, Bind.bind, Except.bind, pure, Except.pure]

/-- The rejection code, if any. -/
def rejection {α : Type} : Except Invalid α → Option Invalid
  | .ok _ => none
  | .error e => some e

/-- All codes occur. -/
example : rejection (validateUnsigned cfg claimsStart (.attest [])) = some .call ∧
    rejection (validateUnsigned { cfg with ecRecover := fun _ _ => none } claimsStart (.claim carol anySig)) =
      some (.custom 0) ∧
    rejection (validateUnsigned cfg (run cfg claimsStart [claimOp carol]) (.claim carol anySig)) = some (.custom 1) ∧
    rejection (validateUnsigned cfg claimsStart (.claimAttest carol anySig StatementKind.saft.statement)) =
      some (.custom 3) ∧
    rejection (prevalidate claimsStart carol (.attest [])) = some (.custom 1) ∧
    rejection (prevalidate claimsStart bob (.attest [])) = some (.custom 3) := by
  refine ⟨?_, ?_, ?_, ?_, ?_, ?_⟩ <;> decide +kernel

/-! ### C145 The pool lets in every claim that would be paid -/

/-- The full claim: an unsigned call of the pallet that would succeed is accepted by the pool. Moving claims is left out:
who may do that is up to the configuration. It is false for the code (see
`C145_refuted`). -/
def C145_Full : Prop := ∀ (c : Cfg) (s s' : Chain) (k : ClaimsCall), (∀ old new p, k ≠ .moveClaim old new p) →
  exec c s (.ext .none (.claims k)) = .ok s' →
  ∃ v, validateUnsigned c s k = .ok v

/-- A claim with a statement that nobody asked for would be paid, but the pool rejects it. -/
theorem C145_refuted : ¬ C145_Full := by
  intro full
  have ok : (exec cfg claimsStart (claimAttestOp carol .saft)).isOk = true := by decide +kernel
  obtain ⟨s', hs'⟩ : ∃ s', exec cfg claimsStart (claimAttestOp carol .saft) = .ok s' := by
    cases h : exec cfg claimsStart (claimAttestOp carol .saft) with
    | ok s' => exact ⟨s', rfl⟩
    | error e => rw [h] at ok; simp [Except.isOk, Except.toBool] at ok
  obtain ⟨v, hv⟩ := full _ _ _ _ (by simp) hs'
  have bad : (validateUnsigned cfg claimsStart (.claimAttest carol anySig StatementKind.saft.statement)).isOk = false := by
    decide +kernel
  rw [hv] at bad
  simp [Except.isOk, Except.toBool] at bad

/-- C145, partial: that is the only case: every other unsigned claim that would be paid is accepted by the pool.
Missing: the pool rejects a statement that is not required, the call does not. -/
theorem C145_partial (c : Cfg) (s s' : Chain) (k : ClaimsCall) (hk : ∀ old new p, k ≠ .moveClaim old new p)
    (h : exec c s (.ext .none (.claims k)) = .ok s') :
    (∃ v, validateUnsigned c s k = .ok v) ∨
      ∃ dest sig st g, k = .claimAttest dest sig st ∧ SignedBy c g sig dest st ∧ s.cl.signing g = none := by
  cases k with
  | claim dest sig =>
    obtain ⟨g, _, h1, h2, h3⟩ := claim_ok.mp h
    obtain ⟨due, bal, h4, _⟩ := processClaim_ok.mp h3
    refine .inl ⟨pooled g, ?_⟩
    rw [validate_claim ((ethRecover_iff ..).mp h1), if_neg (by simp [h4]), if_pos h2]
  | claimAttest dest sig st =>
    obtain ⟨g, _, h1, h2, h3⟩ := claimAttest_ok.mp h
    obtain ⟨due, bal, h4, _⟩ := processClaim_ok.mp h3
    cases hs : s.cl.signing g with
    | none => exact .inr ⟨dest, sig, st, g, rfl, (ethRecover_iff ..).mp h1, hs⟩
    | some kind =>
      refine .inl ⟨pooled g, ?_⟩
      rw [validate_claimAttest ((ethRecover_iff ..).mp h1), if_neg (by simp [h4]), if_pos (by simp [hs, h2 kind hs])]
  | mintClaim w v ve st => obtain ⟨_, h, _⟩ := mintClaim_ok.mp h; simp at h
  | attest st => obtain ⟨_, _, _, h, _⟩ := attest_ok.mp h; simp at h
  | moveClaim o n p => exact absurd rfl (hk o n p)

example : (exec cfg claimsStart (claimOp carol)).isOk = true ∧
    (validateUnsigned cfg claimsStart (.claim carol anySig)).isOk = true := by decide +kernel

/-! ### C146 A pooled claim stays valid until the claim is paid, minted over or moved -/

theorem mem_ops_of_accepted {c : Cfg} {ops : List Op} {a : Chain × Op} :
    ∀ {s : Chain}, a ∈ accepted c s ops → a.2 ∈ ops := by
  induction ops with
  | nil => intro s h; simp [accepted] at h
  | cons op ops ih =>
    intro s h
    cases hx : exec c s op with
    | ok s' =>
      rw [accepted_cons_ok hx] at h
      rcases List.mem_cons.1 h with rfl | h
      · simp
      · exact List.mem_cons_of_mem _ (ih h)
    | error e =>
      rw [accepted_cons_error hx] at h
      exact List.mem_cons_of_mem _ (ih h)

/-- An operation that mints a claim for the address or moves one to it. -/
def Op.bringsClaim (g : EthAddr) : Op → Prop
  | .ext _ (.claims (.mintClaim who _ _ _)) => who = g
  | .ext _ (.claims (.moveClaim _ new _)) => new = g
  | _ => False

/-- An operation that mints a claim for the address, or moves one from it or to it. -/
def Op.rearranges (g : EthAddr) : Op → Prop
  | .ext _ (.claims (.mintClaim who _ _ _)) => who = g
  | .ext _ (.claims (.moveClaim old new _)) => old = g ∨ new = g
  | _ => False

/-- How often a claim of the address was paid, by the event log. -/
def timesPaid (g : EthAddr) (s : Chain) : Nat := s.cl.events.countP fun | .claimed _ a _ => a == g

theorem moveEntry_other {V : Type} {m : EthAddr → Option V} {old new g : EthAddr} (h1 : g ≠ old) (h2 : g ≠ new) :
    moveEntry m old new g = m g := by
  unfold moveEntry
  cases m old with
  | some v => simp only; rw [upd_ne _ _ h2, upd_ne _ _ h1]
  | none => rfl

theorem claim_step {c : Cfg} {s s' : Chain} {op : Op} (h : exec c s op = .ok s') (g : EthAddr)
    (ho : ¬ op.rearranges g) :
    (timesPaid g s' = timesPaid g s ∧ s'.cl.claims g = s.cl.claims g ∧ s'.cl.signing g = s.cl.signing g) ∨
      timesPaid g s' = timesPaid g s + 1 := by
  rcases claims_effect h with ⟨h, _⟩ | ⟨g', dest, due, _, _, _, _, _, claims, _, signing, events⟩ |
    ⟨who, v, vest, st, rfl, _, claims, _, signing, _, events⟩ | ⟨o, old, new, p, rfl, _, rfl⟩
  · left; simp [timesPaid, h]
  · by_cases hg : g' = g
    · right; simp [timesPaid, events, hg]
    · left
      have hg' : g ≠ g' := fun e => hg e.symm
      exact ⟨by unfold timesPaid; rw [events, List.countP_cons_of_neg (by simpa using fun e => hg (Subtype.ext e))], by rw [claims, upd_ne _ _ hg'], by rw [signing, upd_ne _ _ hg']⟩
  · left
    have hg : g ≠ who := fun e => ho e.symm
    refine ⟨by simp [timesPaid, events], by rw [claims, upd_ne _ _ hg], ?_⟩
    rw [signing]; unfold setSome
    split
    · rw [upd_ne _ _ hg]
    · rfl
  · left
    have h1 : g ≠ old := fun e => ho (.inl e.symm)
    have h2 : g ≠ new := fun e => ho (.inr e.symm)
    exact ⟨rfl, moveEntry_other h1 h2, moveEntry_other h1 h2⟩

/-- The pool looks at nothing but the claim of the signer and its statement. -/
theorem validate_congr {c : Cfg} {s t : Chain} {g : EthAddr} {sig : EthSig} {dest : AccountId}
    (h1 : t.cl.claims g = s.cl.claims g) (h2 : t.cl.signing g = s.cl.signing g) :
    (SignedBy c g sig dest [] → validateUnsigned c t (.claim dest sig) = validateUnsigned c s (.claim dest sig)) ∧
    ∀ st, SignedBy c g sig dest st →
      validateUnsigned c t (.claimAttest dest sig st) = validateUnsigned c s (.claimAttest dest sig st) :=
  ⟨fun h => by rw [validate_claim h, validate_claim h, h1, h2],
    fun st h => by rw [validate_claimAttest h, validate_claimAttest h, h1, h2]⟩

/-- C146: as long as no claim of the address was paid (by the event log) and nobody with the authority to do so minted a
claim for it or moved one from or to it, the verdict of the pool on a claim of that address does not change, whatever
else happens. Nobody else can push a claim out of the pool. The hypotheses are met by the last example below. -/
theorem C146_stable (c : Cfg) (s : Chain) (ops : List Op) (g : EthAddr) (sig : EthSig) (dest : AccountId)
    (hp : timesPaid g (run c s ops) = timesPaid g s) (ho : ∀ a ∈ accepted c s ops, ¬ a.2.rearranges g) :
    (SignedBy c g sig dest [] →
      validateUnsigned c (run c s ops) (.claim dest sig) = validateUnsigned c s (.claim dest sig)) ∧
    ∀ st, SignedBy c g sig dest st →
      validateUnsigned c (run c s ops) (.claimAttest dest sig st) = validateUnsigned c s (.claimAttest dest sig st) := by
  have key := history_induction (c := c) (s0 := s) (P := fun t acc => (∀ a ∈ acc, ¬ a.2.rearranges g) →
      timesPaid g s ≤ timesPaid g t ∧ (timesPaid g t = timesPaid g s →
        t.cl.claims g = s.cl.claims g ∧ t.cl.signing g = s.cl.signing g))
    (fun _ => ⟨Nat.le_refl _, fun _ => ⟨rfl, rfl⟩⟩)
    (fun t t' op acc ih hx hacc => by
      obtain ⟨h1, h2⟩ := ih fun a ha => hacc a (List.mem_append_left _ ha)
      rcases claim_step hx g (hacc (t, op) (by simp)) with ⟨e, e1, e2⟩ | e
      · refine ⟨by omega, fun h => ?_⟩
        rw [e1, e2]; exact h2 (by omega)
      · exact ⟨by omega, fun h => by omega⟩) ops ho
  obtain ⟨h1, h2⟩ := key.2 hp
  exact validate_congr h1 h2

/-- C146: once a claim was paid, the pool rejects the same transaction (code 1) at every later time, until somebody with
the authority to do so mints a new claim for the address or moves one to it. -/
theorem C146_spent (c : Cfg) (s s' : Chain) (k : ClaimsCall) (g : EthAddr) (sig : EthSig) (dest : AccountId)
    (hk : (k = .claim dest sig ∧ SignedBy c g sig dest []) ∨
      ∃ st, k = .claimAttest dest sig st ∧ SignedBy c g sig dest st)
    (hx : exec c s (.ext .none (.claims k)) = .ok s') (ops : List Op)
    (ho : ∀ a ∈ accepted c s' ops, ¬ a.2.bringsClaim g) :
    validateUnsigned c (run c s' ops) k = .error (.custom 1) := by
  have h0 : s'.cl.claims g = none := by
    rcases hk with ⟨rfl, hs⟩ | ⟨st, rfl, hs⟩
    · obtain ⟨g', _, h1, _, h3⟩ := claim_ok.mp hx
      obtain ⟨_, _, _, _, _, rfl⟩ := processClaim_ok.mp h3
      rw [hs.unique ((ethRecover_iff ..).mp h1)]; simp
    · obtain ⟨g', _, h1, _, h3⟩ := claimAttest_ok.mp hx
      obtain ⟨_, _, _, _, _, rfl⟩ := processClaim_ok.mp h3
      rw [hs.unique ((ethRecover_iff ..).mp h1)]; simp
  have key := history_induction (c := c) (s0 := s') (P := fun t acc => (∀ a ∈ acc, ¬ a.2.bringsClaim g) →
      t.cl.claims g = none) (fun _ => h0)
    (fun t t' op acc ih hx hacc => by
      have h1 := ih fun a ha => hacc a (List.mem_append_left _ ha)
      have hop := hacc (t, op) (by simp)
      rcases claims_effect hx with ⟨h, _⟩ | ⟨g', dest, due, _, _, _, _, _, claims, _, _, _⟩ |
        ⟨who, v, vest, st, rfl, _, claims, _, _, _, _⟩ | ⟨o, old, new, p, rfl, _, rfl⟩
      · rw [h]; exact h1
      · rw [claims]; by_cases hg : g = g'
        · rw [hg]; simp
        · rw [upd_ne _ _ hg]; exact h1
      · rw [claims, upd_ne _ _ fun e => hop e.symm]; exact h1
      · show moveEntry t.cl.claims old new g = none
        have hn : g ≠ new := fun e => hop e.symm
        unfold moveEntry
        cases t.cl.claims old with
        | some v =>
          simp only
          rw [upd_ne _ _ hn]; by_cases hg : g = old
          · rw [hg]; simp
          · rw [upd_ne _ _ hg]; exact h1
        | none => exact h1) ops ho
  rcases hk with ⟨rfl, hs⟩ | ⟨st, rfl, hs⟩
  · rw [validate_claim hs, if_pos key]
  · rw [validate_claimAttest hs, if_pos key]

/-- Others claim, attest and move around it, and the claim of A stays valid; after it was paid the pool rejects it; a
new claim makes the old signature valid again. -/
example : timesPaid ethA (run cfg claimsStart [mintOp ethC 50 none none, attestOp bob .saft,
      moveOp (.custom 1) ethC ethB none]) = timesPaid ethA claimsStart ∧
    (accepted cfg claimsStart [mintOp ethC 50 none none, attestOp bob .saft,
      moveOp (.custom 1) ethC ethB none]).length = 3 ∧
    rejection (validateUnsigned cfg (run cfg claimsStart [mintOp ethC 50 none none, attestOp bob .saft,
      moveOp (.custom 1) ethC ethB none]) (.claim carol anySig)) = none ∧
    rejection (validateUnsigned cfg (run cfg claimsStart [claimOp carol, attestOp bob .saft]) (.claim carol anySig)) =
      some (.custom 1) ∧
    rejection (validateUnsigned cfg (run cfg claimsStart [claimOp carol, mintOp ethA 50 none none])
      (.claim carol anySig)) = none := by
  refine ⟨?_, ?_, ?_, ?_, ?_⟩ <;> decide +kernel

/-- The hypotheses of `C146_stable` are met by that history. -/
example : validateUnsigned cfg (run cfg claimsStart [mintOp ethC 50 none none, attestOp bob .saft,
      moveOp (.custom 1) ethC ethB none]) (.claim carol anySig) = validateUnsigned cfg claimsStart (.claim carol anySig) :=
  (C146_stable cfg claimsStart _ ethA anySig carol (by decide +kernel) (fun a ha => by
    have h := mem_ops_of_accepted ha
    simp only [List.mem_cons, List.not_mem_nil, or_false] at h
    rcases h with h | h | h <;> rw [h] <;> simp only [Op.rearranges, mintOp, attestOp, moveOp] <;> decide +kernel)).1
    ⟨Arr.zero 64, rfl, by decide +kernel⟩

end Verif
