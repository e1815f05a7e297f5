import Verif.Base

/-!
# XCM vocabulary (external crate `staging-xcm` v4)

Only the constructors and fields that the code of /repo looks at or builds.
-/

namespace Verif

/-- `NetworkId` (external, XCM v4), part of the junctions of asset-registry/src/lib.rs L42-45. -/
inductive NetworkId where
  | byGenesis (hash : Arr 32)
  | byFork (blockNumber : Nat) (blockHash : Arr 32)
  | polkadot | kusama | westend | rococo | wococo
  | ethereum (chainId : Nat)
  | bitcoinCore | bitcoinCash | polkadotBulletin
  deriving DecidableEq

/-- `BodyId` (external, XCM v4), see `Junction`. -/
inductive BodyId where
  | unit
  | moniker (name : Arr 4)
  | index (i : Nat)
  | executive | technical | legislative | judicial | defense | administration | treasury
  deriving DecidableEq

/-- `BodyPart` (external, XCM v4), see `Junction`. -/
inductive BodyPart where
  | voice
  | members (count : Nat)
  | fraction (nom denom : Nat)
  | atLeastProportion (nom denom : Nat)
  | moreThanProportion (nom denom : Nat)
  deriving DecidableEq

/-- `Junction` (external, XCM v4), used in asset-registry/src/lib.rs L42-45. -/
inductive Junction where
  | parachain (id : Nat)
  | accountId32 (network : Option NetworkId) (id : Arr 32)
  | accountIndex64 (network : Option NetworkId) (index : Nat)
  | accountKey20 (network : Option NetworkId) (key : Arr 20)
  | palletInstance (i : Nat)
  | generalIndex (i : Nat)
  | generalKey (length : Nat) (data : Arr 32)
  | onlyChild
  | plurality (id : BodyId) (part : BodyPart)
  | globalConsensus (network : NetworkId)
  deriving DecidableEq

/-- `Location` (external, XCM v4): number of parents and junctions (`Here` = empty list). -/
structure Location where
  parents : Nat
  interior : List Junction
  deriving DecidableEq

/-- `Location::split_last_interior` (external), called in asset-registry/src/lib.rs L151. -/
def Location.splitLastInterior (l : Location) : Location × Option Junction :=
  ({ l with interior := l.interior.dropLast }, l.interior.getLast?)

/-- `Location::last` (external), called in asset-registry/src/lib.rs L165. -/
def Location.last (l : Location) : Option Junction := l.interior.getLast?

/-- `Fungibility` (external). Instances of non fungibles are numbers. -/
inductive Fungibility where
  | fungible (amount : Nat)
  | nonFungible (inst : Nat)
  deriving DecidableEq

/-- `Asset` (external); `AssetId` of XCM v4 is a location. -/
structure Asset where
  id : Location
  fun_ : Fungibility
  deriving DecidableEq

/-- `OriginKind` (external). -/
inductive OriginKind where
  | native
  | sovereignAccount
  | superuser
  | xcm
  deriving DecidableEq

/-- The XCM instructions used in primitives/xcm-transactor/src/lib.rs L105-118 (external type). The weight is
the pair (ref time, proof size); `WeightLimit` and `AssetFilter` only have the cases that are used. -/
inductive Instr where
  | withdrawAsset (assets : List Asset)
  | buyExecutionUnlimited (fees : Asset)
  | transact (kind : OriginKind) (weight : Nat × Nat) (call : Bytes)
  | refundSurplus
  | depositAssetAll (beneficiary : Location)
  deriving DecidableEq

/-- `Xcm<()>` (external). -/
abbrev Xcm := List Instr

/-- `SendError` (external), matched in xcm-transactor/src/lib.rs L97-104; `missingArgument` stands for the
remaining variants. -/
inductive SendError where
  | notApplicable
  | transport
  | unroutable
  | destinationUnsupported
  | exceedsMaxMessageSize
  | missingArgument
  | fees
  deriving DecidableEq

end Verif
