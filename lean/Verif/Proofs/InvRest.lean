import Verif.Proofs.InvBridge
import Verif.Spec.Xcm
import Verif.Spec.Claims

/-!
# Inversion lemmas for teeracle, claims, asset-registry and xcm-transactor
-/

namespace Verif

namespace Teeracle

theorem addToWhitelist_ok {c : Cfg} {s s' : Chain} {o : Origin} {src : Bytes} {fp : Fingerprint} :
    addToWhitelist c s o src fp = .ok s' ↔ o = .root ∧ src.length ≤ 40 ∧ fp ∉ s.orc.whitelist src ∧
      (s.orc.whitelist src).length < c.maxWhitelisted ∧
      s' = { s with orc := { s.orc with
        whitelist := upd s.orc.whitelist src (s.orc.whitelist src ++ [fp])
        events := .addedToWhitelist src fp :: s.orc.events } } := by
  unfold addToWhitelist emit setWhitelist isWhitelisted maxSourceLen
  inv_simp
  simp only [List.contains_eq_mem, decide_eq_false_iff_not]
  simp only [eq_comm]

theorem removeFromWhitelist_ok {s s' : Chain} {o : Origin} {src : Bytes} {fp : Fingerprint} :
    removeFromWhitelist s o src fp = .ok s' ↔ o = .root ∧ fp ∈ s.orc.whitelist src ∧
      s' = { s with orc := { s.orc with
        whitelist := upd s.orc.whitelist src ((s.orc.whitelist src).filter fun m => m ≠ fp)
        events := .removedFromWhitelist src fp :: s.orc.events } } := by
  unfold removeFromWhitelist emit setWhitelist isWhitelisted
  inv_simp
  simp only [List.contains_eq_mem, decide_eq_true_eq]
  constructor
  · rintro ⟨h, h1, rfl⟩; exact ⟨h, h1, rfl⟩
  · rintro ⟨h, h1, rfl⟩; exact ⟨h, h1, rfl⟩

theorem updateOracle_ok {c : Cfg} {s s' : Chain} {o : Origin} {name src blob : Bytes} :
    updateOracle c s o name src blob = .ok s' ↔ ∃ a e, o = .signed a ∧ s.tx.sovereign a = some e ∧
      e.fingerprint ∈ s.orc.whitelist src ∧ name.length ≤ 40 ∧ src.length ≤ 40 ∧ blob.length ≤ c.maxBlob ∧
      s' = { s with orc := { s.orc with
        blobs := upd s.orc.blobs name (upd (s.orc.blobs name) src (some blob))
        events := .oracleUpdated name src :: s.orc.events } } := by
  unfold updateOracle emit isWhitelisted maxSourceLen maxOracleDataNameLen
  inv_simp
  simp only [List.contains_eq_mem, decide_eq_true_eq]
  constructor
  · rintro ⟨a, rfl, e, h1, h2, h3, h4, h5, rfl⟩; exact ⟨a, e, rfl, h1, h2, h3, h4, h5, rfl⟩
  · rintro ⟨a, e, rfl, h1, h2, h3, h4, h5, rfl⟩; exact ⟨a, rfl, e, h1, h2, h3, h4, h5, rfl⟩

/-- The stored value for a submitted rate. -/
def storedRate (new : Option Nat) : Option Nat :=
  match new with
  | some (r + 1) => some (r + 1)
  | _ => none

/-- The event for a submitted rate. -/
def rateEvent (src pair : Bytes) (new : Option Nat) : OrEvent :=
  match new with
  | some (r + 1) => .exchangeRateUpdated src pair (r + 1)
  | _ => .exchangeRateDeleted src pair

theorem updateExchangeRate_ok {s s' : Chain} {o : Origin} {src pair : Bytes} {new : Option Nat} :
    updateExchangeRate s o src pair new = .ok s' ↔ ∃ a e, o = .signed a ∧ s.tx.sovereign a = some e ∧
      pair.length ≤ 11 ∧ e.fingerprint ∈ s.orc.whitelist src ∧
      s' = { s with orc := { s.orc with
        rates := upd s.orc.rates pair (upd (s.orc.rates pair) src (storedRate new))
        events := rateEvent src pair new :: s.orc.events } } := by
  unfold updateExchangeRate emit isWhitelisted maxTradingPairLen
  inv_simp
  simp only [List.contains_eq_mem, decide_eq_true_eq]
  match new with
  | none =>
    constructor
    · rintro ⟨a, rfl, e, h1, h2, h3, h4⟩; exact ⟨a, e, rfl, h1, h2, h3, (by simpa [storedRate, rateEvent] using h4.symm)⟩
    · rintro ⟨a, e, rfl, h1, h2, h3, rfl⟩; exact ⟨a, rfl, e, h1, h2, h3, rfl⟩
  | some 0 =>
    constructor
    · rintro ⟨a, rfl, e, h1, h2, h3, h4⟩; exact ⟨a, e, rfl, h1, h2, h3, (by simpa [storedRate, rateEvent] using h4.symm)⟩
    · rintro ⟨a, e, rfl, h1, h2, h3, rfl⟩; exact ⟨a, rfl, e, h1, h2, h3, rfl⟩
  | some (r + 1) =>
    constructor
    · rintro ⟨a, rfl, e, h1, h2, h3, h4⟩; exact ⟨a, e, rfl, h1, h2, h3, (by simpa [storedRate, rateEvent] using h4.symm)⟩
    · rintro ⟨a, e, rfl, h1, h2, h3, rfl⟩; exact ⟨a, rfl, e, h1, h2, h3, rfl⟩

end Teeracle

namespace Claims

/-- The balances after a claim was paid out. -/
def Paid (c : Cfg) (s : Chain) (signer : EthAddr) (dest : AccountId) (due : Nat) (bal : Balances) : Prop :=
  match s.cl.vesting signer with
  | some v => s.bal.schedules dest = [] ∧
      (s.bal.depositCreating c.ed c.balMax dest due).addVesting c.maxSchedules s.block dest v = .ok bal
  | none => bal = s.bal.depositCreating c.ed c.balMax dest due

theorem vestingBalance_none {b : Balances} {n : Nat} {a : AccountId} :
    b.vestingBalance n a = none ↔ b.schedules a = [] := by
  unfold Balances.vestingBalance; split <;> simp_all

theorem processClaim_ok {c : Cfg} {s s' : Chain} {signer : EthAddr} {dest : AccountId} :
    processClaim c s signer dest = .ok s' ↔ ∃ due bal, s.cl.claims signer = some due ∧ due ≤ s.cl.total ∧
      Paid c s signer dest due bal ∧
      s' = { s with
        bal := bal
        cl := { s.cl with
          total := s.cl.total - due
          claims := upd s.cl.claims signer none
          vesting := upd s.cl.vesting signer none
          signing := upd s.cl.signing signer none
          events := .claimed dest signer due :: s.cl.events } } := by
  unfold processClaim Paid
  inv_simp
  cases hv : s.cl.vesting signer with
  | none =>
    simp only [Option.isSome_none, Bool.false_and, Bool.and_false, pure_eq_ok, bind_eq_ok, true_and, exists_eq_left',
      Except.ok.injEq]
    constructor
    · rintro ⟨due, h1, h2, rfl⟩; exact ⟨due, _, h1, h2, rfl, rfl⟩
    · rintro ⟨due, b, h1, h2, rfl, rfl⟩; exact ⟨due, h1, h2, rfl⟩
  | some v =>
    simp only [Option.isSome_some, Bool.true_and, Option.isSome_eq_false_iff, Option.isNone_iff_eq_none,
      vestingBalance_none]
    inv_simp
    constructor
    · rintro ⟨due, h1, h2, h3, b, h4, rfl⟩; exact ⟨due, b, h1, h2, ⟨h3, h4⟩, rfl⟩
    · rintro ⟨due, b, h1, h2, ⟨h3, h4⟩, rfl⟩; exact ⟨due, h1, h2, h3, b, h4, rfl⟩

theorem claim_ok {c : Cfg} {s s' : Chain} {o : Origin} {dest : AccountId} {sig : EthSig} :
    claim c s o dest sig = .ok s' ↔ ∃ signer, o = .none ∧
      ethRecover c sig (toAsciiHex dest.val) [] = some signer ∧ s.cl.signing signer = none ∧
      processClaim c s signer dest = .ok s' := by
  unfold claim
  inv_simp
  constructor
  · rintro ⟨h, g, h1, h2, h3⟩; exact ⟨g, h, h1, h2, h3⟩
  · rintro ⟨g, h, h1, h2, h3⟩; exact ⟨h, g, h1, h2, h3⟩

theorem toText_eq (k : StatementKind) : k.toText = k.statement := by cases k <;> rfl

theorem signing_all {st : Option StatementKind} {t : Bytes} :
    (st.all fun k => k.toText == t) = true ↔ ∀ k, st = some k → k.statement = t := by
  cases st <;> simp [toText_eq]

theorem claimAttest_ok {c : Cfg} {s s' : Chain} {o : Origin} {dest : AccountId} {sig : EthSig} {st : Bytes} :
    claimAttest c s o dest sig st = .ok s' ↔ ∃ signer, o = .none ∧
      ethRecover c sig (toAsciiHex dest.val) st = some signer ∧
      (∀ k, s.cl.signing signer = some k → k.statement = st) ∧
      processClaim c s signer dest = .ok s' := by
  unfold claimAttest
  inv_simp
  simp only [signing_all]
  constructor
  · rintro ⟨h, g, h1, h2, h3⟩; exact ⟨g, h, h1, h2, h3⟩
  · rintro ⟨g, h, h1, h2, h3⟩; exact ⟨h, g, h1, h2, h3⟩

theorem attest_ok {c : Cfg} {s s' : Chain} {o : Origin} {st : Bytes} :
    attest c s o st = .ok s' ↔ ∃ who signer s1, o = .signed who ∧ s.cl.preclaims who = some signer ∧
      (∀ k, s.cl.signing signer = some k → k.statement = st) ∧
      processClaim c s signer who = .ok s1 ∧
      s' = { s1 with cl := { s1.cl with preclaims := upd s1.cl.preclaims who none } } := by
  unfold attest
  inv_simp
  simp only [signing_all]
  constructor
  · rintro ⟨a, rfl, g, h1, h2, s1, h3, rfl⟩; exact ⟨a, g, s1, rfl, h1, h2, h3, rfl⟩
  · rintro ⟨a, g, s1, rfl, h1, h2, h3, rfl⟩; exact ⟨a, rfl, g, h1, h2, s1, h3, rfl⟩

/-- Overwrite an entry if there is a new value. -/
def setSome {V : Type} (m : EthAddr → Option V) (k : EthAddr) (v : Option V) : EthAddr → Option V :=
  match v with
  | some v => upd m k (some v)
  | none => m

theorem mintClaim_ok {c : Cfg} {s s' : Chain} {o : Origin} {who : EthAddr} {value : Nat}
    {v : Option VestingInfo} {st : Option StatementKind} :
    mintClaim c s o who value v st = .ok s' ↔ ∃ total, o = .root ∧
      plainAdd c c.balMax s.cl.total value = .ok total ∧
      s' = { s with cl := { s.cl with
        total := total
        claims := upd s.cl.claims who (some value)
        vesting := setSome s.cl.vesting who v
        signing := setSome s.cl.signing who st } } := by
  unfold mintClaim
  inv_simp
  cases v <;> cases st <;> simp only [setSome]
  all_goals
    constructor
    · rintro ⟨h, t, h1, rfl⟩; exact ⟨t, h, h1, rfl⟩
    · rintro ⟨t, h, h1, rfl⟩; exact ⟨h, t, h1, rfl⟩

/-- The preclaims after a move. -/
def movedPreclaims (s : Chain) (old new : EthAddr) (p : Option AccountId) : AccountId → Option EthAddr :=
  match p with
  | some p => if s.cl.preclaims p = some old then upd s.cl.preclaims p (some new) else s.cl.preclaims
  | none => s.cl.preclaims

theorem moveClaim_ok {c : Cfg} {s s' : Chain} {o : Origin} {old new : EthAddr} {p : Option AccountId} :
    moveClaim c s o old new p = .ok s' ↔ (c.moveClaimOrigin o = true ∨ o = .root) ∧
      s' = { s with cl := { s.cl with
        claims := moveEntry s.cl.claims old new
        vesting := moveEntry s.cl.vesting old new
        signing := moveEntry s.cl.signing old new
        preclaims := movedPreclaims s old new p } } := by
  unfold moveClaim
  inv_simp
  simp only [Bool.or_eq_true, decide_eq_true_eq]
  cases p <;> simp only [movedPreclaims] <;>
  · constructor
    · rintro ⟨h, rfl⟩; exact ⟨h, rfl⟩
    · rintro ⟨h, rfl⟩; exact ⟨h, rfl⟩

end Claims

namespace AssetRegistry

theorem registerReserveAsset_ok {c : Cfg} {s s' : Chain} {o : Origin} {id : AssetId} {loc : Location} :
    registerReserveAsset c s o id loc = .ok s' ↔ c.assetOrigin o = true ∧ (s.assets id).isSome = true ∧
      s.ar.idLoc id = none ∧ validAssetLocation loc = true ∧
      s' = { s with ar := {
        idLoc := upd s.ar.idLoc id (some loc)
        locId := upd s.ar.locId loc (some id)
        events := .registered id loc :: s.ar.events } } := by
  unfold registerReserveAsset emit
  inv_simp
  constructor
  · rintro ⟨h1, h2, h3, h4, rfl⟩; exact ⟨h1, h2, h3, h4, rfl⟩
  · rintro ⟨h1, h2, h3, h4, rfl⟩; exact ⟨h1, h2, h3, h4, rfl⟩

theorem unregisterReserveAsset_ok {c : Cfg} {s s' : Chain} {o : Origin} {id : AssetId} :
    unregisterReserveAsset c s o id = .ok s' ↔ ∃ loc, c.assetOrigin o = true ∧ s.ar.idLoc id = some loc ∧
      s' = { s with ar := {
        idLoc := upd s.ar.idLoc id none
        locId := upd s.ar.locId loc none
        events := .unregistered id loc :: s.ar.events } } := by
  unfold unregisterReserveAsset emit
  inv_simp
  constructor
  · rintro ⟨h1, l, h2, rfl⟩; exact ⟨l, h1, h2, rfl⟩
  · rintro ⟨l, h1, h2, rfl⟩; exact ⟨h1, l, h2, rfl⟩

end AssetRegistry

namespace XcmTransactor

theorem sendSwapUmp_ok {c : Cfg} {s s' : Chain} {o : Origin} {self other : Nat} {w : Nat × Nat} {fee : Nat} :
    sendSwapUmp c s o self other w fee = .ok s' ↔ ∃ hash, c.swapOrigin o = true ∧ self ≠ other ∧
      (self = c.shellParaId ∨ self = c.ksmParaId) ∧ (other = c.shellParaId ∨ other = c.ksmParaId) ∧
      c.sendXcm s.xt.sent parent (constructTransactXcm c.ownParaId (swapCall self other) w fee) = .ok hash ∧
      s' = { s with xt := {
        sent := (parent, constructTransactXcm c.ownParaId (swapCall self other) w fee) :: s.xt.sent
        events := .swapTransactSent self other :: .sentXcm hash :: s.xt.events } } := by
  unfold sendSwapUmp
  inv_simp
  simp only [List.contains_eq_mem, List.mem_cons, List.not_mem_nil, or_false, decide_eq_true_eq]
  constructor
  · rintro ⟨h1, h2, h3, h4, g, h5, rfl⟩; exact ⟨g, h1, h2, h3, h4, h5, rfl⟩
  · rintro ⟨g, h1, h2, h3, h4, h5, rfl⟩; exact ⟨h1, h2, h3, h4, g, h5, rfl⟩

/-- The program that is sent is the one of the specification. -/
theorem construct_swapProgram (own self other : Nat) (w : Nat × Nat) (fee : Nat) :
    constructTransactXcm own (swapCall self other) w fee = swapProgram own self other w fee := by
  have h : ∀ n, toLE 4 n = le32 n := by
    intro n
    simp only [toLE, le32]
    have e : ∀ m : Nat, UInt8.ofNat (m % 256) = UInt8.ofNat m := by
      intro m; apply UInt8.toNat_inj.mp; simp
    simp only [e, Nat.div_div_eq_div_mul, Nat.reduceMul, Nat.reducePow]
  simp [constructTransactXcm, swapProgram, swapCall, RelayRuntimeCall.encode, RegistrarCall.encode, h]

end XcmTransactor

theorem balTransfer_ok {c : Cfg} {s s' : Chain} {o : Origin} {dst : AccountId} {amount : Nat} :
    balTransfer c s o dst amount = .ok s' ↔ ∃ a b, o = .signed a ∧
      s.bal.transfer c.ed c.balMax a dst amount = .ok b ∧ s' = { s with bal := b } := by
  unfold balTransfer
  inv_simp
  simp only [EnclaveBridge.doTransfer_ok]
  constructor
  · rintro ⟨a, rfl, b, h, rfl⟩; exact ⟨a, b, rfl, h, rfl⟩
  · rintro ⟨a, b, rfl, h, rfl⟩; exact ⟨a, rfl, b, h, rfl⟩

end Verif
