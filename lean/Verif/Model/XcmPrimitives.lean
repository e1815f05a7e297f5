import Verif.Model.AssetRegistry

/-!
# Model of primitives/xcm/src/lib.rs
-/

namespace Verif

namespace XcmPrimitives

/-- `AsAssetLocation::convert`, primitives/xcm/src/lib.rs L45-47. -/
def convert (s : Chain) (l : Location) : Option AssetId := AssetRegistry.getAssetId s l

/-- `AsAssetLocation::convert_back`, primitives/xcm/src/lib.rs L49-51. -/
def convertBack (s : Chain) (id : AssetId) : Option Location := AssetRegistry.getAssetLocation s id

/-- `staging_xcm_executor::traits::Error` (external), as used in primitives/xcm/src/lib.rs L73-77. -/
inductive MatchError where
  | assetNotHandled
  | amountToBalanceConversionFailed
  deriving DecidableEq

/-- `ConvertedRegisteredAssetId::matches_fungibles`, primitives/xcm/src/lib.rs L70-79. `toBalance` is
`ConvertBalance::convert_back` (external). -/
def matchesFungibles (s : Chain) (toBalance : Nat → Option Nat) (a : Asset) : Except MatchError (AssetId × Nat) := do
  let (amount, id) ←
    match a.fun_ with
    | .fungible amount => pure (amount, a.id)
    | .nonFungible _ => .error .assetNotHandled
  let what ← okOr (convert s id) .assetNotHandled
  let amount ← okOr (toBalance amount) .amountToBalanceConversionFailed
  .ok (what, amount)

/-- `AssetsInHolding` (external): fungibles by location (a map, here a list with distinct keys) and
non fungibles. -/
structure Holding where
  fungible : List (Location × Nat)
  nonFungible : List (Location × Nat)

/-- `DropAssetsWeigher`, primitives/xcm/src/lib.rs L82-86, with weights as pairs. -/
structure Weigher where
  fungible : Nat × Nat
  native : Nat × Nat
  default : Nat × Nat

/-- `Weight::saturating_add` (external) on both `u64` components. -/
def weightAdd (a b : Nat × Nat) : Nat × Nat := (satAdd (2 ^ 64 - 1) a.1 b.1, satAdd (2 ^ 64 - 1) a.2 b.2)

/-- `NATIVE_LOCATION`, primitives/xcm/src/lib.rs L128. -/
def nativeLocation : Location := { parents := 0, interior := [] }

/-- The closure of `retain` in `drop_assets`, primitives/xcm/src/lib.rs L135-157: keep the asset? `balMax` is the
maximum of both balance types (`saturated_into`); `minimum_balance` of an asset that does not exist is zero
(pallet_assets, external). -/
def keep (c : Cfg) (s : Chain) (p : Location × Nat) : Bool :=
  match AssetRegistry.getAssetId s p.1 with
  | some id => decide (min p.2 c.balMax ≥ (s.assets id).getD 0)
  | none => decide (p.1 = nativeLocation) && decide (min p.2 c.balMax ≥ c.ed)

/-- The weight accrued for one asset, primitives/xcm/src/lib.rs L140, L148. -/
def itemWeight (s : Chain) (w : Weigher) (p : Location × Nat) : Nat × Nat :=
  match AssetRegistry.getAssetId s p.1 with
  | some _ => w.fungible
  | none => w.native

/-- `IntegriteeDropAssets::drop_assets`, primitives/xcm/src/lib.rs L127-162: what is passed on to the asset trap of
the XCM pallet (external), and the weight. `trapWeight` is the weight answered by that pallet. -/
def dropAssets (c : Cfg) (s : Chain) (w : Weigher) (h : Holding) (trapWeight : Holding → Nat × Nat) :
    Holding × (Nat × Nat) :=
  let weight := h.fungible.foldl (fun acc p => weightAdd acc (itemWeight s w p)) w.default
  let h' : Holding := { fungible := h.fungible.filter (keep c s), nonFungible := [] }
  (h', weightAdd weight (trapWeight h'))

end XcmPrimitives

end Verif
