import Verif.Model.Runtime

/-!
# Specification: what a call looks at and what it changes

The state is divided into places. For each call a list of places that its outcome may depend on, and a list of places
that it may change. Event logs are not places.
-/

namespace Verif

/-- A part of the state that belongs together. -/
inductive Place where
  /-- the bond of an account -/
  | bond (a : AccountId)
  /-- the pending withdrawal of an account -/
  | pending (a : AccountId)
  /-- balance and locks of an account -/
  | money (a : AccountId)
  /-- vesting schedules of an account -/
  | schedules (a : AccountId)
  /-- the total issuance -/
  | issuance
  /-- the enclaves registered by an account -/
  | enclaves (a : AccountId)
  /-- the quoting enclave -/
  | quotingEnclave
  /-- the platform levels -/
  | platforms
  /-- the two flags of teerex -/
  | flags
  /-- status, configuration and latest sidechain block of a shard -/
  | shard (i : ShardId)
  /-- the counter of an unshielding call -/
  | unshielding (h : H256)
  /-- an exchange rate -/
  | rate (pair source : Bytes)
  /-- an oracle entry -/
  | blob (name source : Bytes)
  /-- the whitelist of a source -/
  | whitelist (source : Bytes)
  /-- all claims -/
  | claims
  /-- the registry of asset locations -/
  | registry
  /-- an asset -/
  | asset (i : AssetId)
  /-- messages sent to other chains -/
  | outbox
  deriving DecidableEq

/-- The place looks the same in both states. -/
def Place.same (s t : Chain) : Place → Prop
  | .bond a => s.td.bonds a = t.td.bonds a
  | .pending a => s.td.pending a = t.td.pending a
  | .money a => s.bal.free a = t.bal.free a ∧ ∀ id, s.bal.lock id a = t.bal.lock id a
  | .schedules a => s.bal.schedules a = t.bal.schedules a
  | .issuance => s.bal.issuance = t.bal.issuance
  | .enclaves a => s.tx.sovereign a = t.tx.sovereign a ∧
      ∀ x : EnclaveInstanceAddress, x.registrar = a → s.tx.proxied x = t.tx.proxied x
  | .quotingEnclave => s.tx.qe = t.tx.qe
  | .platforms => s.tx.tcb = t.tx.tcb
  | .flags => s.tx.allowDebug = t.tx.allowDebug ∧ s.tx.allowSkip = t.tx.allowSkip
  | .shard i => s.br.status i = t.br.status i ∧ s.br.config i = t.br.config i ∧ s.sc.latest i = t.sc.latest i
  | .unshielding h => s.br.executed h = t.br.executed h
  | .rate p q => s.orc.rates p q = t.orc.rates p q
  | .blob n q => s.orc.blobs n q = t.orc.blobs n q
  | .whitelist q => s.orc.whitelist q = t.orc.whitelist q
  | .claims => s.cl.claims = t.cl.claims ∧ s.cl.total = t.cl.total ∧ s.cl.vesting = t.cl.vesting ∧
      s.cl.signing = t.cl.signing ∧ s.cl.preclaims = t.cl.preclaims
  | .registry => s.ar.idLoc = t.ar.idLoc ∧ s.ar.locId = t.ar.locId
  | .asset i => s.assets i = t.assets i
  | .outbox => s.xt.sent = t.xt.sent

/-- Sending this much leaves less than the existential deposit, which is burned. -/
def leavesDust (c : Cfg) (s : Chain) (a : AccountId) (v : Nat) : Bool := s.bal.free a - v < c.ed

/-- The places touched by sending money. -/
def sending (c : Cfg) (s : Chain) (src dst : AccountId) (v : Nat) : List Place :=
  [.money src, .money dst] ++ if leavesDust c s src v then [.issuance] else []

/-- The account that signed, if any (otherwise some account without meaning, no place is named for it). -/
def Origin.own (o : Origin) (f : AccountId → List Place) : List Place :=
  match o with
  | .signed a => f a
  | _ => []

/-- The shard that an account's enclave publishes under: its measurement. -/
def ownShard (s : Chain) (a : AccountId) : List Place :=
  match s.tx.sovereign a with
  | some e => [.shard e.mrEnclave]
  | none => []

/-- What a call may change. -/
def Call.changes (c : Cfg) (s : Chain) (o : Origin) : Call → List Place
  | .bond _ | .bondExtra _ => o.own fun a => [.bond a, .money a]
  | .unbond _ => o.own fun a => [.bond a, .pending a]
  | .updateOther a => [.bond a]
  | .withdrawUnbonded => o.own fun a => [.pending a, .money a]
  | .registerSgxEnclave .. => o.own fun a => [.enclaves a]
  | .unregisterSovereignEnclave a => [.enclaves a]
  | .unregisterProxiedEnclave x => [.enclaves x.registrar]
  | .registerQuotingEnclave .. => [.quotingEnclave]
  | .registerTcbInfo .. => [.platforms]
  | .setSecurityFlags .. => [.flags]
  | .invoke .. => []
  | .confirmProcessedParentchainBlock i .. => [.shard i]
  | .shieldFunds i _ v => o.own fun a => sending c s a i v
  | .unshieldFunds i b v h => [.shard i, .unshielding h] ++ sending c s i b v
  | .publishHash .. => o.own fun a => ownShard s a
  | .updateShardConfig i .. => [.shard i]
  | .purgeEnclave i _ => [.shard i]
  | .confirmImportedSidechainBlock i .. => [.shard i]
  | .addToWhitelist q _ => [.whitelist q]
  | .removeFromWhitelist q _ => [.whitelist q]
  | .updateOracle n q _ => [.blob n q]
  | .updateExchangeRate q p _ => [.rate p q]
  | .claims (.claim d _) | .claims (.claimAttest d _ _) => [.claims, .money d, .schedules d, .issuance]
  | .claims (.attest _) => .claims :: .issuance :: o.own fun a => [.money a, .schedules a]
  | .claims (.mintClaim ..) | .claims (.moveClaim ..) => [.claims]
  | .registerReserveAsset .. | .unregisterReserveAsset .. => [.registry]
  | .sendSwapUmp .. => [.outbox]
  | .balTransfer dst v => o.own fun a => sending c s a dst v

/-- What the outcome of a call may depend on, besides the clock, the configuration and what it changes. -/
def Call.consults (o : Origin) : Call → List Place
  | .bondExtra _ => o.own fun a => [.pending a]
  | .registerSgxEnclave .. => [.quotingEnclave, .platforms, .flags]
  | .confirmProcessedParentchainBlock .. | .unshieldFunds .. | .publishHash .. | .updateShardConfig ..
  | .confirmImportedSidechainBlock .. => o.own fun a => [.enclaves a]
  | .updateOracle _ q _ | .updateExchangeRate q _ _ => .whitelist q :: o.own fun a => [.enclaves a]
  | .registerReserveAsset i _ => [.asset i]
  | _ => []

/-- Both states look the same to the call. -/
def Call.cannotTell (c : Cfg) (s t : Chain) (o : Origin) (k : Call) : Prop :=
  s.now = t.now ∧ s.block = t.block ∧ ∀ x, x ∈ k.changes c s o ∨ x ∈ k.consults o → x.same s t

/-- Neither call changes what the other one changes or consults. -/
def Unrelated (c : Cfg) (s : Chain) (o₁ : Origin) (k₁ : Call) (o₂ : Origin) (k₂ : Call) : Prop :=
  ∀ x, (x ∈ k₁.changes c s o₁ → x ∉ k₂.changes c s o₂ ∧ x ∉ k₂.consults o₂) ∧
    (x ∈ k₂.changes c s o₂ → x ∉ k₁.consults o₁)

end Verif
