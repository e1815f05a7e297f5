import Verif.Props.Limits
import Verif.Props.Reasons
import Verif.Props.Pool
import Verif.Props.Armour
import Verif.Props.Refusal

/-!
# Where the remaining partial theorems stop

Continues `Verif.Props.Limits`.
-/

namespace Verif

open Demo EnclaveBridge Claims B64

/-- C06: exactly when a partial unbonding burns pro rata: what stays is a possible bond, or there was less than one unit of
tokentime for each bonded unit. -/
theorem C06_sharp (c : Cfg) (s s' : Chain) (a : AccountId) (v : Nat) (b : Bond) (hb : s.td.bonds a = some b) (hv : v < b.value)
    (h : exec c s (.ext (.signed a) (.unbond v)) = .ok s') :
    (tokentimeNow c s' a * b.value ≤ tokentimeNow c s a * (b.value - v) ∧
      tokentimeNow c s a * (b.value - v) < (tokentimeNow c s' a + (b.value - v)) * b.value ∧
      s'.td.events.head? = some (.unbonded a v (tokentimeNow c s a - tokentimeNow c s' a))) ↔
    (c.ed ≤ b.value - v ∨ tokentimeNow c s a < b.value) := by
  by_cases hr : c.ed ≤ b.value - v
  · exact ⟨fun _ => .inl hr, fun _ => (C06_prorata_partial c s s' a v b hb hv hr h).2⟩
  · have h' := h
    obtain ⟨a', b', due, ho, hp, he, hb', hd, rfl⟩ := Teerdays.unbond_ok.mp h
    simp only [Origin.signed.injEq] at ho; subst ho
    rw [hb, Option.some.injEq] at hb'; subst hb'
    have hlt : b.value - v < c.ed := by omega
    have hpos : b.value ≠ 0 := by omega
    have hz : ∀ ev pend x, tokentimeNow c { s with td :=
        { bonds := upd s.td.bonds a (if b.value - v < c.ed then none else x), pending := pend, events := ev } } a = 0 := by
      intro ev pend x
      simp only [tokentimeNow, upd_same, if_pos hlt, Option.elim_none]
    rw [hz]
    have htn : tokentimeNow c s a = (b.update c.balMax s.now).tokentime := by rw [bondNow_of hb]; rfl
    simp only [List.head?_cons, Option.some.injEq, TdEvent.unbonded.injEq, true_and, Nat.sub_zero, Nat.zero_add, Nat.zero_mul,
      Nat.zero_le]
    constructor
    · rintro ⟨h1, -⟩
      right
      rw [Nat.mul_comm] at h1
      exact Nat.lt_of_mul_lt_mul_left h1
    · rintro (h1 | h1)
      · exact absurd h1 hr
      · refine ⟨?_, by omega, ?_⟩
        · rw [Nat.mul_comm]; exact Nat.mul_lt_mul_of_pos_left h1 (by omega)
        · rw [← htn]
          have h2 : Teerdays.leftTokentime c.balMax (b.update c.balMax s.now) (b.value - v) = 0 := by
            unfold Teerdays.leftTokentime satMul Teerdays.divOrZero
            have h3 : (b.update c.balMax s.now).value = b.value := rfl
            rw [h3, if_neg hpos, ← htn, Nat.div_eq_of_lt h1, Nat.zero_mul]
            exact Nat.min_eq_left (Nat.zero_le _)
          rw [h2]
          rfl

/-- 995 of 1000 are unbonded when there are 6000 units of tokentime. -/
example : ∃ s', exec cfg bonded (.ext (.signed alice) (.unbond 995)) = .ok s' ∧ bonded.td.bonds alice = some ⟨1000, 5000, 0⟩ ∧
    ¬ (cfg.ed ≤ 1000 - 995 ∨ tokentimeNow cfg bonded alice < 1000) :=
  ⟨_, exec_ok_of_isOk (op := .ext (.signed alice) (.unbond 995)) (by decide +kernel), by decide +kernel, by decide +kernel⟩

/-- C55: exactly when a payout panics. -/
theorem C55_sharp (c : Cfg) (s0 : Chain) (ops : List Op) (h0 : FreshBridge s0) (o : Origin) (k : ClaimsCall) (hk : PaysOut k) :
    exec c (run c s0 ops) (.ext o (.claims k)) = .error .panic ↔
      ∃ g dest st, BadSchedule c (run c s0 ops) g dest ∧ StatementOk (run c s0 ops) g st ∧
        ((∃ sig, o = .none ∧ k = .claim dest sig ∧ st = [] ∧ SignedBy c g sig dest [] ∧ (run c s0 ops).cl.signing g = none) ∨
         (∃ sig, o = .none ∧ k = .claimAttest dest sig st ∧ SignedBy c g sig dest st) ∨
         (o = .signed dest ∧ k = .attest st ∧ (run c s0 ops).cl.preclaims dest = some g)) := by
  rw [panic_iff (statusOk_run (statusOk_fresh h0) ops) o (.claims k)]
  generalize run c s0 ops = s
  cases k with
  | claim d sig =>
    constructor
    · rintro ⟨g, h1, h2, h3, h4⟩
      exact ⟨g, d, [], h4, (fun k hk => by rw [h3] at hk; cases hk), .inl ⟨sig, h1, rfl, rfl, h2, h3⟩⟩
    · rintro ⟨g, d', st, h1, h2, ⟨sig', h3, h4, h5, h6, h7⟩ | ⟨sig', h3, h4, h5⟩ | ⟨h3, h4, h5⟩⟩ <;> cases h4
      exact ⟨g, h3, h6, h7, h1⟩
  | claimAttest d sig st =>
    constructor
    · rintro ⟨g, h1, h2, h3, h4⟩
      exact ⟨g, d, st, h4, h3, .inr (.inl ⟨sig, h1, rfl, h2⟩)⟩
    · rintro ⟨g, d', st', h1, h2, ⟨sig', h3, h4, h5, h6, h7⟩ | ⟨sig', h3, h4, h5⟩ | ⟨h3, h4, h5⟩⟩ <;> cases h4
      exact ⟨g, h3, h5, h2, h1⟩
  | attest st =>
    constructor
    · rintro ⟨a, g, h1, h2, h3, h4⟩
      exact ⟨g, a, st, h4, h3, .inr (.inr ⟨h1, rfl, h2⟩)⟩
    · rintro ⟨g, d', st', h1, h2, ⟨sig', h3, h4, h5, h6, h7⟩ | ⟨sig', h3, h4, h5⟩ | ⟨h3, h4, h5⟩⟩ <;> cases h4
      exact ⟨d', g, h3, h5, h2, h1⟩
  | mintClaim w v x y => exact hk.elim
  | moveClaim a b d => exact hk.elim

/-- A claim that vests nothing per block. -/
example : exec cfg (run cfg start [mintOp ethA 50 (some ⟨40, 0, 10⟩) none]) (claimOp bob) = .error .panic ∧ FreshBridge start ∧
    PaysOut (.claim bob anySig) :=
  ⟨errorOf_some (by decide +kernel), ⟨fun _ => rfl, fun _ => rfl, fun _ => rfl⟩, trivial⟩

/-- C56: in a solvent state, exactly when an attest call accepted by the pool succeeds. -/
theorem C56_sharp (c : Cfg) (s : Chain) (who : AccountId) (st : Bytes) (g : EthAddr) (hs : Solvent s)
    (h : ∃ v, prevalidate s who (.attest st) = .ok v) (hg : s.cl.preclaims who = some g) :
    (∃ s', exec c s (.ext (.signed who) (.claims (.attest st))) = .ok s') ↔
      s.cl.claims g ≠ none ∧ ∀ v, s.cl.vesting g = some v →
        s.bal.schedules who = [] ∧ (v.locked = 0 ∨ (v.perBlock ≠ 0 ∧ 0 < c.maxSchedules)) := by
  obtain ⟨g', hg', hst⟩ := (C56_prevalidate_iff s who st).mp h
  rw [hg, Option.some.injEq] at hg'
  subst hg'
  constructor
  · rintro ⟨s', hx⟩
    obtain ⟨a, g', s1, ho, h1, _, h2, _⟩ := attest_ok.mp hx
    cases ho
    rw [hg, Option.some.injEq] at h1
    subst h1
    obtain ⟨due, bal, h3, _, hp, _⟩ := processClaim_ok.mp h2
    refine ⟨by rw [h3]; simp, fun v hv => ?_⟩
    simp only [Paid, hv] at hp
    refine ⟨hp.1, ?_⟩
    rcases Balances.addVesting_ok hp.2 with ⟨h, _⟩ | ⟨_, h1, h2, _⟩
    · exact .inl h
    · exact .inr ⟨h1, by omega⟩
  · rintro ⟨hc, hv⟩
    cases hx : exec c s (.ext (.signed who) (.claims (.attest st))) with
    | ok s' => exact ⟨s', rfl⟩
    | error e =>
      exfalso
      have hp : processClaim c s g who = .error e := by
        rcases attest_error hx with ⟨_, h⟩ | ⟨a, ha, ⟨_, h⟩ | ⟨g', hg', ⟨_, k, h1, h2⟩ | h⟩⟩
        · exact absurd rfl (h who)
        · cases ha; rw [hg] at h; cases h
        · cases ha; rw [hg] at hg'; cases hg'; exact absurd (hst k h1) h2
        · cases ha; rw [hg] at hg'; cases hg'; exact h
      rcases processClaim_error hp with ⟨_, h⟩ | ⟨_, due, hd, hlt⟩ | ⟨_, v, hv', h⟩ | ⟨_, v, hv', h1, _, h2⟩
      · exact hc h
      · have h1 := hs [g] (by simp)
        simp only [openClaims, List.map_cons, List.map_nil, hd, Option.getD_some, List.sum_cons, List.sum_nil, Nat.add_zero] at h1
        omega
      · exact h (hv v hv').1
      · rcases (hv v hv').2 with h | ⟨h3, h4⟩
        · exact h1 h
        · rcases h2 with h2 | h2
          · exact h3 h2
          · omega

/-- Bob's preclaim at the start. -/
example : Solvent claimsStart ∧ (∃ v, prevalidate claimsStart bob (.attest StatementKind.saft.statement) = .ok v) ∧ claimsStart.cl.preclaims bob = some ethB ∧
    claimsStart.cl.claims ethB ≠ none ∧ claimsStart.cl.vesting ethB = none :=
  ⟨C48_genesis cfg demoGenesis [] claimsStart.cl claimsStart rfl rfl (.inr (by decide)),
    (C56_prevalidate_iff claimsStart bob _).mpr ⟨ethB, by decide +kernel, fun k hk => by
      have h1 : claimsStart.cl.signing ethB = some .saft := by decide +kernel
      rw [h1] at hk
      cases hk
      rfl⟩,
    by decide +kernel, by decide +kernel, by decide +kernel⟩

/-- C77: exactly when the registration of collateral panics. -/
theorem C77_sharp (c : Cfg) (s0 : Chain) (ops : List Op) (h0 : FreshBridge s0) (o : Origin) (data sig chain : Bytes)
    (hnow : (run c s0 ops).now < 2 ^ 63) :
    (exec c (run c s0 ops) (.ext o (.registerTcbInfo data sig chain)) = .error .panic ↔
      ∃ a p, o = .signed a ∧ SignedDocument c (run c s0 ops) data sig chain ∧ c.ext.parseTcbInfo data = some p ∧
        p.id = "SGX" ∧ p.version = 3 ∧ p.issueDate < 0 ∧ ((run c s0 ops).now : Int) < p.nextUpdate) ∧
    (exec c (run c s0 ops) (.ext o (.registerQuotingEnclave data sig chain)) = .error .panic ↔
      ∃ a p, o = .signed a ∧ SignedDocument c (run c s0 ops) data sig chain ∧ c.ext.parseIdentity data = some p ∧
        p.id = "QE" ∧ p.version = 2 ∧ p.issueDate < 0 ∧ ((run c s0 ops).now : Int) < p.nextUpdate) := by
  have hs := statusOk_run (c := c) (statusOk_fresh h0) ops
  have hn : ¬ 2 ^ 63 ≤ (run c s0 ops).now := by omega
  refine ⟨(panic_iff hs o (.registerTcbInfo data sig chain)).trans ?_, (panic_iff hs o (.registerQuotingEnclave data sig chain)).trans ?_⟩ <;>
    simp only [PanicCase, hn, false_or]

/-- A document of the year 1969. -/
example : ∃ a p, (Origin.signed bob) = .signed a ∧
    SignedDocument { okCfg with ext := { okExt with parseDate := fun t => if t = "3" then some (-1) else readDate t } } start (bytes 3 1)
      (bytes 64 1) pem ∧
    Ext.parseTcbInfo { okExt with parseDate := fun t => if t = "3" then some (-1) else readDate t } (bytes 3 1) = some p ∧
    p.id = "SGX" ∧ p.version = 3 ∧ p.issueDate < 0 ∧ (start.now : Int) < p.nextUpdate :=
  (C77_sharp { okCfg with ext := { okExt with parseDate := fun t => if t = "3" then some (-1) else readDate t } } start []
    ⟨fun _ => rfl, fun _ => rfl, fun _ => rfl⟩ (.signed bob) (bytes 3 1) (bytes 64 1) pem (by decide)).1.mp
    (errorOf_some (by decide +kernel))

/-- C145: exactly when the pool lets in an unsigned claim that would be paid. -/
theorem C145_sharp (c : Cfg) (s s' : Chain) (k : ClaimsCall) (hk : ∀ old new p, k ≠ .moveClaim old new p)
    (h : exec c s (.ext .none (.claims k)) = .ok s') :
    (∃ v, validateUnsigned c s k = .ok v) ↔
      ∀ dest sig st g, k = .claimAttest dest sig st → SignedBy c g sig dest st → s.cl.signing g ≠ none := by
  constructor
  · rintro ⟨v, hv⟩ dest sig st g rfl hg hn
    obtain ⟨g', _, _, ⟨d, x, he, _⟩ | ⟨d, x, kind, he, h1, h2⟩⟩ := validateUnsigned_ok.mp hv
    · cases he
    · cases he
      rw [hg.unique h1, h2] at hn
      cases hn
  · intro hn
    rcases C145_partial c s s' k hk h with h | ⟨d, x, st, g, h1, h2, h3⟩
    · exact h
    · exact absurd h3 (hn d x st g h1 h2)

/-- A statement that nobody asked for. -/
example : ∃ s', exec cfg claimsStart (claimAttestOp carol .saft) = .ok s' ∧ SignedBy cfg ethA anySig carol StatementKind.saft.statement ∧
    claimsStart.cl.signing ethA = none :=
  ⟨_, exec_ok_of_isOk (op := claimAttestOp carol .saft) (by decide +kernel), (ethRecover_iff ..).mp (by decide +kernel), rfl⟩

/-- C152: exactly when a chain of certificates is read. -/
theorem C152_sharp (x : Ext) (eol chain : Bytes) (certs : List Bytes) (hb : ReadsBase64 x) (he : eol ∈ lineEnds) (h : IsPem eol chain certs) :
    extractCerts x chain = certs ↔ eol = [10] ∨ certs = [] := by
  have h13 : eol = [13] ∨ eol = [13, 10] → extractCerts x chain = [] := fun he =>
    (C152_carriage_return { Demo.cfg with ext := x } Demo.start alice [] [] eol chain certs hb he h).1
  have hcr : eol = [10] ∨ (eol = [13] ∨ eol = [13, 10]) := by simpa [lineEnds] using he
  rcases hcr with rfl | hcr
  · refine ⟨fun _ => .inl rfl, fun _ => ?_⟩
    have := C152_chain_partial x chain [] certs hb h (by simp)
    rwa [List.append_nil] at this
  · rw [h13 hcr]
    constructor
    · intro h; exact .inr h.symm
    · rintro (rfl | rfl)
      · simp at hcr
      · rfl

/-- A chain with both characters at the end of lines. -/
example : ∃ chain, IsPem [13, 10] chain [[1, 2, 3]] ∧ extractCerts armourCfg.ext chain ≠ [[1, 2, 3]] :=
  have h : IsPem [13, 10] _ [[1, 2, 3]] := .cons [Der.ascii "AQID"] [1, 2, 3] [] [] (by simp) ⟨0, by decide, by decide +kernel⟩ .nil
  ⟨_, h, fun hh => absurd ((C152_sharp armourCfg.ext [13, 10] _ [[1, 2, 3]] armourCfg_reads (by simp [lineEnds]) h).mp hh) (by simp)⟩

end Verif
