import Verif.Model.Runtime

/-!
# Specification vocabulary: what an observer concludes from the events

An observer sees only events. Event lists are newest first, so the first event of a list that speaks about a
subject is the last word on it. The functions below use nothing but events and constants of the runtime.
-/

namespace Verif

/-- A chain that has just started: nothing stored except balances, the two flags of teerex and the claims given at
genesis. Time and block number are arbitrary. -/
def JustStarted (s : Chain) : Prop :=
  ∃ bal d k cl now block, s = { genesis bal d k cl with now := now, block := block } ∧ cl.events = []

/-- The last word of the events on a subject: `f` gives what an event says about it. -/
def lastWord {E V : Type} (f : E → Option V) (events : List E) : Option V := events.findSome? f

/-! ### Teerdays -/

/-- What an event says about the value and tokentime of the bond of `a`, given what was known before. -/
def TdEvent.tell (ed balMax : Nat) (a : AccountId) : TdEvent → Option (Nat × Nat) → Option (Nat × Nat)
  | .bonded b v, known => if b = a then
      match known with
      | none => some (v, 0)
      | some (w, t) => some (min (w + v) balMax, t)
    else known
  | .unbonded b v burned, known => if b = a then
      match known with
      | none => none
      | some (w, t) => if w - v < ed then none else some (w - v, t - burned)
    else known
  | .tokenTimeUpdated b bond, known => if b = a then some (bond.value, bond.tokentime) else known
  | .withdrawn _ _, known => known

/-- Value and tokentime of the bond of `a` according to the events. -/
def bondTold (ed balMax : Nat) (a : AccountId) (events : List TdEvent) : Option (Nat × Nat) :=
  events.foldr (TdEvent.tell ed balMax a) none

/-- What an event says about the amount that `a` is waiting for. -/
def TdEvent.pendingOf (a : AccountId) : TdEvent → Option (Option Nat)
  | .unbonded b v _ => if b = a then some (some v) else none
  | .withdrawn b _ => if b = a then some none else none
  | _ => none

/-! ### Teerex -/

/-- The enclave answers for another account's registration: the flag in the attestation method. -/
def SgxAttestationMethod.isProxied : SgxAttestationMethod → Bool
  | .skip p => p
  | .dcap p => p
  | .ias => false

/-- What an event says about the sovereign enclave of `a`: url, status and attestation method, or its removal. -/
def TxEvent.sovereignOf (a : AccountId) : TxEvent → Option (Option (Option Bytes × SgxStatus × SgxAttestationMethod))
  | .addedSgxEnclave b url (some status) m => if b = a ∧ m.isProxied = false then some (some (url, status, m)) else none
  | .removedSovereignEnclave b => if b = a then some none else none
  | _ => none

/-- What an event says about the TCB info of a platform type. -/
def TxEvent.tcbOf (f : Fmspc) : TxEvent → Option SgxTcbInfoOnChain
  | .sgxTcbInfoRegistered g info => if g = f then some info else none
  | _ => none

/-- What an event says about the quoting enclave. -/
def TxEvent.qeOf : TxEvent → Option SgxQuotingEnclave
  | .sgxQuotingEnclaveRegistered qe => some qe
  | _ => none

/-- What an event says about the two flags (skipping attestation, debug enclaves). -/
def TxEvent.flagsOf : TxEvent → Option (Bool × Bool)
  | .updatedSecurityFlags k d => some (k, d)
  | _ => none

/-! ### Enclave bridge -/

/-- The event announces a configuration of the shard. -/
def BrEvent.configures (shard : ShardId) : BrEvent → Bool
  | .shardConfigUpdated x => decide (x = shard)
  | _ => false

/-! ### Teeracle -/

/-- What an event says about an exchange rate. -/
def OrEvent.rateOf (pair src : Bytes) : OrEvent → Option (Option Nat)
  | .exchangeRateUpdated x p r => if x = src ∧ p = pair then some (some r) else none
  | .exchangeRateDeleted x p => if x = src ∧ p = pair then some none else none
  | _ => none

/-- What an event says about the releases that may report for a source, given those known before. -/
def OrEvent.tell (src : Bytes) : OrEvent → List Fingerprint → List Fingerprint
  | .addedToWhitelist x fp, known => if x = src then known ++ [fp] else known
  | .removedFromWhitelist x fp, known => if x = src then known.filter fun m => m ≠ fp else known
  | _, known => known

/-- The releases that may report for a source according to the events. -/
def whitelistTold (src : Bytes) (events : List OrEvent) : List Fingerprint := events.foldr (OrEvent.tell src) []

/-! ### Claims -/

/-- The event announces the payment of the claim of an address. -/
def ClEvent.pays (g : EthAddr) : ClEvent → Bool
  | .claimed _ x _ => decide (x = g)

/-- The operation mints or moves a claim. -/
def Op.rewritesClaims : Op → Bool
  | .ext _ (.claims (.mintClaim ..)) => true
  | .ext _ (.claims (.moveClaim ..)) => true
  | _ => false

/-! ### Asset registry -/

/-- What an event says about the location of an asset. -/
def ArEvent.locationOf (id : AssetId) : ArEvent → Option (Option Location)
  | .registered x loc => if x = id then some (some loc) else none
  | .unregistered x _ => if x = id then some none else none

/-- What an event says about the asset at a location. -/
def ArEvent.assetAt (loc : Location) : ArEvent → Option (Option AssetId)
  | .registered x l => if l = loc then some (some x) else none
  | .unregistered _ l => if l = loc then some none else none

/-! ### XCM transactor -/

/-- The pair of parachains that an event says a swap was sent for. -/
def XtEvent.swapOf : XtEvent → Option (Nat × Nat)
  | .swapTransactSent a b => some (a, b)
  | _ => none

/-- The calls that a message asks its receiver to make. -/
def Xcm.transacted (m : Xcm) : List Bytes :=
  m.filterMap fun i => match i with
    | .transact _ _ call => some call
    | _ => none

/-! ### All pallets -/

/-- Number of events so far, of all pallets. -/
def eventCount (s : Chain) : Nat :=
  s.td.events.length + s.tx.events.length + s.br.events.length + s.sc.events.length + s.orc.events.length +
    s.cl.events.length + s.ar.events.length + s.xt.events.length

end Verif
