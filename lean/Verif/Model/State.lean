import Verif.Model.Balances
import Verif.Model.SgxVerify
import Verif.Model.XcmTypes

/-!
# Configuration, storage, errors and events of all pallets

Storage maps are functions; `OptionQuery` maps have `Option` values. The event lists are newest first and are
never truncated (FRAME drops them after each block; keeping them makes histories observable).
-/

namespace Verif

/-- Origin of a call (external: FRAME `RawOrigin`); `custom` stands for other origins a runtime may define. -/
inductive Origin where
  | root
  | signed (a : AccountId)
  | none
  | custom (n : Nat)
  deriving DecidableEq

/-! ### Teerdays -/

/-- `TeerDayBond`, primitives/teerdays/src/lib.rs L7-12. -/
structure Bond where
  value : Nat
  lastUpdated : Nat
  tokentime : Nat
  deriving DecidableEq

/-- `Event`, teerdays/src/lib.rs L126-135. -/
inductive TdEvent where
  | bonded (a : AccountId) (amount : Nat)
  | unbonded (a : AccountId) (amount burned : Nat)
  | tokenTimeUpdated (a : AccountId) (bond : Bond)
  | withdrawn (a : AccountId) (amount : Nat)
  deriving DecidableEq

/-- Storage of pallet teerdays, teerdays/src/lib.rs L156-166. -/
structure TeerdaysSt where
  bonds : AccountId → Option Bond
  pending : AccountId → Option (Nat × Nat)
  events : List TdEvent

/-! ### Teerex -/

/-- `Event`, teerex/src/lib.rs L79-97. -/
inductive TxEvent where
  | addedSgxEnclave (registeredBy : AccountId) (url : Option Bytes) (status : Option SgxStatus)
      (method : SgxAttestationMethod)
  | removedSovereignEnclave (a : AccountId)
  | removedProxiedEnclave (a : EnclaveInstanceAddress)
  | sgxTcbInfoRegistered (fmspc : Fmspc) (info : SgxTcbInfoOnChain)
  | sgxQuotingEnclaveRegistered (qe : SgxQuotingEnclave)
  | updatedSecurityFlags (allowSkip allowDebug : Bool)
  deriving DecidableEq

/-- Storage of pallet teerex, teerex/src/lib.rs L224-266. -/
structure TeerexSt where
  sovereign : AccountId → Option SgxEnclave
  proxied : EnclaveInstanceAddress → Option SgxEnclave
  qe : SgxQuotingEnclave
  tcb : Fmspc → Option SgxTcbInfoOnChain
  allowDebug : Bool
  allowSkip : Bool
  events : List TxEvent

/-! ### Enclave bridge -/

/-- `ShardSignerStatus`, primitives/enclave-bridge/src/lib.rs L34-38. -/
structure SignerStatus where
  signer : AccountId
  fingerprint : Fingerprint
  lastActivity : Nat
  deriving DecidableEq

/-- `ShardConfig`, primitives/enclave-bridge/src/lib.rs L42-51. -/
structure ShardConfig where
  fingerprint : Fingerprint
  maxInstances : Option Nat
  authorities : Option (List AccountId)
  maintenance : Bool
  deriving DecidableEq

/-- `UpgradableShardConfig`, primitives/enclave-bridge/src/lib.rs L65-72. -/
structure UpgradableShardConfig where
  active : ShardConfig
  pending : Option ShardConfig
  upgradeAt : Option Nat
  deriving DecidableEq

/-- `Event`, enclave-bridge/src/lib.rs L77-111. `publishedHash` also carries the topics passed to
`deposit_event_indexed` (L303-306). -/
inductive BrEvent where
  | indirectInvocationRegistered (shard : ShardId)
  | shieldFunds (shard : ShardId) (encryptedBeneficiary : Bytes) (amount : Nat)
  | unshieldedFunds (shard : ShardId) (beneficiary : AccountId) (amount : Nat)
  | processedParentchainBlock (shard : ShardId) (blockHash merkleRoot : H256) (blockNumber : Nat)
  | publishedHash (topics : List H256) (fingerprint : Fingerprint) (hash : H256) (data : Bytes)
  | shardConfigUpdated (shard : ShardId)
  | purgedEnclave (shard : ShardId) (subject : AccountId)
  deriving DecidableEq

/-- Storage of pallet enclave-bridge, enclave-bridge/src/lib.rs L129-151. `executed` is `ValueQuery` with
default 0; `none` means the key does not exist (`contains_key` is false). -/
structure BridgeSt where
  status : ShardId → Option (List SignerStatus)
  config : ShardId → Option UpgradableShardConfig
  executed : H256 → Option Nat
  events : List BrEvent

/-! ### Sidechain -/

/-- `SidechainBlockConfirmation`, primitives/sidechain/src/lib.rs L30-33. -/
structure Confirmation where
  number : Nat
  hash : H256
  deriving DecidableEq

/-- `Event`, sidechain/src/lib.rs L59-67. -/
inductive ScEvent where
  | finalized (shard : ShardId) (number : Nat) (hash : H256) (validateer : AccountId)
  deriving DecidableEq

/-- Storage of pallet sidechain, sidechain/src/lib.rs L83-86. -/
structure SidechainSt where
  latest : ShardId → Option Confirmation
  events : List ScEvent

/-! ### Teeracle -/

/-- `Event`, teeracle/src/lib.rs L108-123. An exchange rate (`U32F32`) is given by its 64 raw bits. -/
inductive OrEvent where
  | exchangeRateUpdated (source pair : Bytes) (rate : Nat)
  | exchangeRateDeleted (source pair : Bytes)
  | oracleUpdated (name source : Bytes)
  | addedToWhitelist (source : Bytes) (fp : Fingerprint)
  | removedFromWhitelist (source : Bytes) (fp : Fingerprint)
  deriving DecidableEq

/-- Storage of pallet teeracle, teeracle/src/lib.rs L71-104: rates by trading pair and source, blobs by name
and source (`ValueQuery`; `none` = no entry), whitelists by source. -/
structure TeeracleSt where
  rates : Bytes → Bytes → Option Nat
  blobs : Bytes → Bytes → Option Bytes
  whitelist : Bytes → List Fingerprint
  events : List OrEvent

/-! ### Claims -/

/-- `EthereumAddress`, primitives/claims/src/lib.rs L92. -/
abbrev EthAddr := Arr 20
/-- `EcdsaSignature`, primitives/claims/src/lib.rs L126. -/
abbrev EthSig := Arr 65

/-- `StatementKind`, primitives/claims/src/lib.rs L64-70. -/
inductive StatementKind where
  | regular
  | saft
  deriving DecidableEq

/-- `Event`, claims/src/lib.rs L95-98. -/
inductive ClEvent where
  | claimed (who : AccountId) (addr : EthAddr) (amount : Nat)
  deriving DecidableEq

/-- Storage of pallet claims, claims/src/lib.rs L117-140. -/
structure ClaimsSt where
  claims : EthAddr → Option Nat
  total : Nat
  vesting : EthAddr → Option VestingInfo
  signing : EthAddr → Option StatementKind
  preclaims : AccountId → Option EthAddr
  events : List ClEvent

/-! ### Asset registry -/

/-- `AssetIdOf<T>`, asset-registry/src/lib.rs L50-51; a number in the runtimes. -/
abbrev AssetId := Nat

/-- `Event`, asset-registry/src/lib.rs L77-80. -/
inductive ArEvent where
  | registered (id : AssetId) (loc : Location)
  | unregistered (id : AssetId) (loc : Location)
  deriving DecidableEq

/-- Storage of pallet asset-registry, asset-registry/src/lib.rs L69-73. -/
structure AssetRegSt where
  idLoc : AssetId → Option Location
  locId : Location → Option AssetId
  events : List ArEvent

/-! ### XCM transactor -/

/-- `Event`, xcm-transactor/src/lib.rs L66-69. -/
inductive XtEvent where
  | sentXcm (hash : H256)
  | swapTransactSent (a b : Nat)
  deriving DecidableEq

/-- Effects of pallet xcm-transactor, xcm-transactor/src/lib.rs L148-154: the messages handed to the XCM router
(newest first), and its events. -/
structure XcmSt where
  sent : List (Location × Xcm)
  events : List XtEvent

/-! ### Everything together -/

/-- Errors a call can return. `panic` is a Rust panic, `other` the `&str` error of teerex/src/lib.rs L643. -/
inductive Err where
  | badOrigin
  | panic
  | other
  | bal (e : BalErr)
  | sgx (e : SgxError)
  -- teerdays/src/lib.rs L138-153
  | alreadyBonded | insufficientBond | insufficientUnbond | noBond | pendingUnlock | notUnlocking
  -- teerex/src/lib.rs L100-128
  | senderIsNotAttestedEnclave | remoteAttestationIsTooOld | sgxModeIsNotAllowed | enclaveIsNotRegistered
  | enclaveUrlIsTooLong | raProofIsTooLong | collateralIsInvalid | unregisterActiveEnclaveIsNotAllowed
  | skippingAttestationIsNotAllowed | missingTcbInfoForFmspc | tcbInfoIsOutdated
  -- enclave-bridge/src/lib.rs L114-127
  | wrongFingerprintForShard | tooManyTopics | dataTooLong | tooManyEnclaves | shardNotFound
  -- sidechain/src/lib.rs L70-81
  | finalizationCandidateIsOutdated | ancestorNumberMismatch | ancestorHashMismatch | ancestorMissing
  -- teeracle/src/lib.rs L126-141
  | fingerprintWhitelistOverflow | fingerprintNotWhitelisted | fingerprintAlreadyWhitelisted
  | tradingPairStringTooLong | oracleDataNameStringTooLong | dataSourceStringTooLong | oracleBlobTooBig
  -- claims/src/lib.rs L101-115
  | invalidEthereumSignature | signerHasNoClaim | senderHasNoClaim | potUnderflow | invalidStatement
  | vestedBalanceExists
  -- asset-registry/src/lib.rs L83-92
  | assetAlreadyRegistered | assetDoesNotExist | assetIsNotRegistered | wrongLocation
  -- xcm-transactor/src/lib.rs L72-92
  | invalidSwapIds | swapIdsEqual | unreachableDest | transport | unroutable | destinationUnsupported
  | feesNotMet | xcmSendError
  deriving DecidableEq

/-- Runtime configuration: the `Config` associated types and constants of the pallets (teerdays/src/lib.rs
L94-122, teerex/src/lib.rs L64-76, teeracle/src/lib.rs L58-68, claims/src/lib.rs L83-91,
asset-registry/src/lib.rs L59-67, xcm-transactor/src/lib.rs L46-62), the maxima of the number types, the
currency's constants and the external functions. `overflowChecks` is the Rust build flag that decides whether a
plain `+` panics or wraps around on overflow. -/
structure Cfg where
  ed : Nat
  balMax : Nat
  momentMax : Nat
  blockMax : Nat
  overflowChecks : Bool
  unlockPeriod : Nat
  momentsPerDay : Nat
  maxRenewal : Nat
  maxWhitelisted : Nat
  maxBlob : Nat
  claimsPrefix : Bytes
  moveClaimOrigin : Origin → Bool
  maxSchedules : Nat
  assetOrigin : Origin → Bool
  swapOrigin : Origin → Bool
  shellParaId : Nat
  ksmParaId : Nat
  ownParaId : Nat
  keccak : Bytes → Arr 32
  ecRecover : EthSig → Arr 32 → Option (Arr 64)
  sendXcm : List (Location × Xcm) → Location → Xcm → Except SendError H256
  ext : Ext

/-- The state of the chain seen by the modelled pallets. `assets` is the part of pallet_assets (external) used
by asset-registry: `some min` iff the asset exists, with its minimum balance. `now` is `pallet_timestamp::get`;
`Moment` is `u64`, as in the runtimes of this chain, so that its conversions from and to `u64` (teerex/src/lib.rs
L412, L459-462, L590, L642) do not saturate. -/
structure Chain where
  now : Nat
  block : Nat
  bal : Balances
  td : TeerdaysSt
  tx : TeerexSt
  br : BridgeSt
  sc : SidechainSt
  orc : TeeracleSt
  cl : ClaimsSt
  ar : AssetRegSt
  xt : XcmSt
  assets : AssetId → Option Nat

/-! ### FRAME helpers -/

/-- `ensure_signed` (frame_system, external). -/
def ensureSigned : Origin → Except Err AccountId
  | .signed a => .ok a
  | _ => .error .badOrigin

/-- `ensure_root` (frame_system, external). -/
def ensureRoot : Origin → Except Err Unit
  | .root => .ok ()
  | _ => .error .badOrigin

/-- `ensure_none` (frame_system, external). -/
def ensureNone : Origin → Except Err Unit
  | .none => .ok ()
  | _ => .error .badOrigin

/-- `ensure_signed_or_root` (frame_system, external): the signer, or nothing for root. -/
def ensureSignedOrRoot : Origin → Except Err (Option AccountId)
  | .root => .ok none
  | .signed a => .ok (some a)
  | _ => .error .badOrigin

/-- Plain Rust `a + b` (e.g. claims/src/lib.rs L257) on an unsigned type with maximum `max`: panics on overflow if the
build has overflow checks, otherwise wraps around. -/
def plainAdd (c : Cfg) (max a b : Nat) : Except Err Nat :=
  if a + b ≤ max then .ok (a + b)
  else if c.overflowChecks then .error .panic
  else .ok ((a + b) % (max + 1))

end Verif
