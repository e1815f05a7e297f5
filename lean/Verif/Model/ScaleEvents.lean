import Verif.Model.Scale

/-!
# The SCALE encoding of events

`Encode` of the `Event` enums of the pallets (derived: position of the variant, then its fields in the order of the
source) and of the records that frame_system keeps of a block.
-/

namespace Verif

/-- `RuntimeEvent` (external, generated from the pallets of the runtime), as far as the pallets of /repo go. -/
inductive Event where
  /-- teerdays/src/lib.rs L126-135 -/
  | td (e : TdEvent)
  /-- teerex/src/lib.rs L79-97 -/
  | tx (e : TxEvent)
  /-- enclave-bridge/src/lib.rs L77-111 -/
  | br (e : BrEvent)
  /-- sidechain/src/lib.rs L59-67 -/
  | sc (e : ScEvent)
  /-- teeracle/src/lib.rs L108-123 -/
  | orc (e : OrEvent)
  /-- claims/src/lib.rs L95-98 -/
  | cl (e : ClEvent)
  /-- asset-registry/src/lib.rs L77-80 -/
  | ar (e : ArEvent)
  /-- xcm-transactor/src/lib.rs L66-69 -/
  | xt (e : XtEvent)
  deriving DecidableEq

/-- The topics of an event: `deposit_event_indexed`, enclave-bridge/src/lib.rs L504-509, is called with topics by
publish_hash only (L300-306); all other events are deposited without topics. -/
def Event.topics : Event → List H256
  | .br (.publishedHash topics _ _ _) => topics
  | _ => []

/-- The event itself: topics are not among its fields (enclave-bridge/src/lib.rs L100-104). -/
def Event.bare : Event → Event
  | .br (.publishedHash _ fp hash data) => .br (.publishedHash [] fp hash data)
  | e => e

namespace Scale

variable (w : Widths)

/-- `Event`, teerdays/src/lib.rs L126-135. -/
def teerdaysEvent : Codec TdEvent :=
  enum [⟨0, _, pair (arr 32) (le w.bal), fun (a, v) => .bonded a v, fun | .bonded a v => some (a, v) | _ => none⟩,
    ⟨1, _, pair (arr 32) (pair (le w.bal) (le w.bal)), fun (a, v, b) => .unbonded a v b,
      fun | .unbonded a v b => some (a, v, b) | _ => none⟩,
    ⟨2, _, pair (arr 32) (teerDayBond w), fun (a, b) => .tokenTimeUpdated a b,
      fun | .tokenTimeUpdated a b => some (a, b) | _ => none⟩,
    ⟨3, _, pair (arr 32) (le w.bal), fun (a, v) => .withdrawn a v, fun | .withdrawn a v => some (a, v) | _ => none⟩]

/-- `Event`, teerex/src/lib.rs L79-97. -/
def teerexEvent : Codec TxEvent :=
  enum [⟨0, _, pair (arr 32) (pair (opt bytes) (pair (opt sgxStatus) attestationMethod)),
      fun (a, u, t, m) => .addedSgxEnclave a u t m, fun | .addedSgxEnclave a u t m => some (a, u, t, m) | _ => none⟩,
    ⟨1, _, arr 32, .removedSovereignEnclave, fun | .removedSovereignEnclave a => some a | _ => none⟩,
    ⟨2, _, instanceAddress, .removedProxiedEnclave, fun | .removedProxiedEnclave a => some a | _ => none⟩,
    ⟨3, _, pair (arr 6) tcbInfoOnChain, fun (f, i) => .sgxTcbInfoRegistered f i,
      fun | .sgxTcbInfoRegistered f i => some (f, i) | _ => none⟩,
    ⟨4, _, quotingEnclave, .sgxQuotingEnclaveRegistered, fun | .sgxQuotingEnclaveRegistered q => some q | _ => none⟩,
    ⟨5, _, pair bool bool, fun (k, d) => .updatedSecurityFlags k d,
      fun | .updatedSecurityFlags k d => some (k, d) | _ => none⟩]

/-- `Event`, enclave-bridge/src/lib.rs L77-111. -/
def bridgeEvent : Codec BrEvent :=
  enum [⟨0, _, arr 32, .indirectInvocationRegistered, fun | .indirectInvocationRegistered s => some s | _ => none⟩,
    ⟨1, _, pair (arr 32) (pair bytes (le w.bal)), fun (s, b, v) => .shieldFunds s b v,
      fun | .shieldFunds s b v => some (s, b, v) | _ => none⟩,
    ⟨2, _, pair (arr 32) (pair (arr 32) (le w.bal)), fun (s, b, v) => .unshieldedFunds s b v,
      fun | .unshieldedFunds s b v => some (s, b, v) | _ => none⟩,
    ⟨3, _, pair (arr 32) (pair (arr 32) (pair (arr 32) (le w.block))),
      fun (s, h, r, n) => .processedParentchainBlock s h r n,
      fun | .processedParentchainBlock s h r n => some (s, h, r, n) | _ => none⟩,
    ⟨4, _, pair (arr 32) (pair (arr 32) bytes), fun (f, h, d) => .publishedHash [] f h d,
      fun | .publishedHash [] f h d => some (f, h, d) | _ => none⟩,
    ⟨5, _, arr 32, .shardConfigUpdated, fun | .shardConfigUpdated s => some s | _ => none⟩,
    ⟨6, _, pair (arr 32) (arr 32), fun (s, a) => .purgedEnclave s a,
      fun | .purgedEnclave s a => some (s, a) | _ => none⟩]

/-- `Event`, sidechain/src/lib.rs L59-67. -/
def sidechainEvent : Codec ScEvent :=
  enum [⟨0, _, pair (arr 32) (pair (le 8) (pair (arr 32) (arr 32))), fun (s, n, h, a) => .finalized s n h a,
      fun | .finalized s n h a => some (s, n, h, a)⟩]

/-- `Event`, teeracle/src/lib.rs L108-123. -/
def teeracleEvent : Codec OrEvent :=
  enum [⟨0, _, pair bytes (pair bytes (le 8)), fun (s, p, r) => .exchangeRateUpdated s p r,
      fun | .exchangeRateUpdated s p r => some (s, p, r) | _ => none⟩,
    ⟨1, _, pair bytes bytes, fun (s, p) => .exchangeRateDeleted s p,
      fun | .exchangeRateDeleted s p => some (s, p) | _ => none⟩,
    ⟨2, _, pair bytes bytes, fun (n, s) => .oracleUpdated n s, fun | .oracleUpdated n s => some (n, s) | _ => none⟩,
    ⟨3, _, pair bytes (arr 32), fun (s, f) => .addedToWhitelist s f,
      fun | .addedToWhitelist s f => some (s, f) | _ => none⟩,
    ⟨4, _, pair bytes (arr 32), fun (s, f) => .removedFromWhitelist s f,
      fun | .removedFromWhitelist s f => some (s, f) | _ => none⟩]

/-- `Event`, claims/src/lib.rs L95-98. -/
def claimsEvent : Codec ClEvent :=
  enum [⟨0, _, pair (arr 32) (pair (arr 20) (le w.bal)), fun (a, e, v) => .claimed a e v,
      fun | .claimed a e v => some (a, e, v)⟩]

/-- `Event`, asset-registry/src/lib.rs L77-80. The encoding of a location is a parameter. -/
def assetRegistryEvent (loc : Codec Location) : Codec ArEvent :=
  enum [⟨0, _, pair (le w.asset) loc, fun (i, l) => .registered i l, fun | .registered i l => some (i, l) | _ => none⟩,
    ⟨1, _, pair (le w.asset) loc, fun (i, l) => .unregistered i l, fun | .unregistered i l => some (i, l) | _ => none⟩]

/-- `Event`, xcm-transactor/src/lib.rs L66-69. A `ParaId` is a `u32` (external). -/
def xcmTransactorEvent : Codec XtEvent :=
  enum [⟨0, _, arr 32, .sentXcm, fun | .sentXcm h => some h | _ => none⟩,
    ⟨1, _, pair (le 4) (le 4), fun (a, b) => .swapTransactSent a b,
      fun | .swapTransactSent a b => some (a, b) | _ => none⟩]

/-- The indices of the pallets in the runtime (`construct_runtime`, external). -/
structure PalletIndex where
  td : UInt8
  tx : UInt8
  br : UInt8
  sc : UInt8
  orc : UInt8
  cl : UInt8
  ar : UInt8
  xt : UInt8

/-- `RuntimeEvent` (external): the index of the pallet, then its event. -/
def runtimeEvent (ix : PalletIndex) (loc : Codec Location) : Codec Event :=
  enum [⟨ix.td, _, teerdaysEvent w, .td, fun | .td e => some e | _ => none⟩,
    ⟨ix.tx, _, teerexEvent, .tx, fun | .tx e => some e | _ => none⟩,
    ⟨ix.br, _, bridgeEvent w, .br, fun | .br e => some e | _ => none⟩,
    ⟨ix.sc, _, sidechainEvent, .sc, fun | .sc e => some e | _ => none⟩,
    ⟨ix.orc, _, teeracleEvent, .orc, fun | .orc e => some e | _ => none⟩,
    ⟨ix.cl, _, claimsEvent w, .cl, fun | .cl e => some e | _ => none⟩,
    ⟨ix.ar, _, assetRegistryEvent w loc, .ar, fun | .ar e => some e | _ => none⟩,
    ⟨ix.xt, _, xcmTransactorEvent, .xt, fun | .xt e => some e | _ => none⟩]

/-- `Phase` (external, frame_system). -/
inductive Phase where
  | applyExtrinsic (index : Nat)
  | finalization
  | initialization
  deriving DecidableEq

/-- Encoding of `Phase` (external, frame_system). -/
def phase : Codec Phase :=
  enum [⟨0, _, le 4, .applyExtrinsic, fun | .applyExtrinsic i => some i | _ => none⟩,
    ⟨1, _, unit, fun _ => .finalization, fun | .finalization => some () | _ => none⟩,
    ⟨2, _, unit, fun _ => .initialization, fun | .initialization => some () | _ => none⟩]

/-- `EventRecord` (external, frame_system): phase, event, topics. -/
def eventRecord (ix : PalletIndex) (loc : Codec Location) : Codec (Phase × Event × List H256) :=
  pair phase (pair (runtimeEvent w ix loc) (vec (arr 32)))

/-- What frame_system (external) records of an event that a call deposits. -/
def recordOf (p : Phase × Event) : Phase × Event × List H256 := (p.1, p.2.bare, p.2.topics)

/-- The value of `System::Events` (external): the records of the block, in order. -/
def eventLog (ix : PalletIndex) (loc : Codec Location) (log : List (Phase × Event)) : Bytes :=
  (vec (eventRecord w ix loc)).enc (log.map recordOf)

end Scale
end Verif
