import Verif.Model.State

/-!
# Model of asset-registry/src/lib.rs
-/

namespace Verif

namespace AssetRegistry

/-- `deposit_event`, asset-registry/src/lib.rs L76. -/
def emit (s : Chain) (e : ArEvent) : Chain := { s with ar := { s.ar with events := e :: s.ar.events } }

/-- `valid_asset_location`, asset-registry/src/lib.rs L150-170. -/
def validAssetLocation (l : Location) : Bool :=
  let (split, last) := l.splitLastInterior
  let check := match last with
    | some (.accountId32 ..) => true
    | some (.accountKey20 ..) => true
    | some (.palletInstance _) => true
    | some (.parachain _) => true
    | none => true
    | _ => false
  check || match last with
    | some (.generalIndex _) => match split.last with
      | some (.palletInstance _) => true
      | _ => false
    | _ => false

/-- `register_reserve_asset`, asset-registry/src/lib.rs L99-125. -/
def registerReserveAsset (c : Cfg) (s : Chain) (o : Origin) (id : AssetId) (loc : Location) :
    Except Err Chain := do
  ensure (c.assetOrigin o) .badOrigin
  ensure (s.assets id).isSome .assetDoesNotExist
  ensure (s.ar.idLoc id).isNone .assetAlreadyRegistered
  ensure (validAssetLocation loc) .wrongLocation
  let s := { s with ar := { s.ar with
    idLoc := upd s.ar.idLoc id (some loc)
    locId := upd s.ar.locId loc (some id) } }
  .ok (emit s (.registered id loc))

/-- `unregister_reserve_asset`, asset-registry/src/lib.rs L129-144. -/
def unregisterReserveAsset (c : Cfg) (s : Chain) (o : Origin) (id : AssetId) : Except Err Chain := do
  ensure (c.assetOrigin o) .badOrigin
  let loc ← okOr (s.ar.idLoc id) .assetIsNotRegistered
  let s := { s with ar := { s.ar with
    idLoc := upd s.ar.idLoc id none
    locId := upd s.ar.locId loc none } }
  .ok (emit s (.unregistered id loc))

/-- `get_asset_location`, asset-registry/src/lib.rs L174-176. -/
def getAssetLocation (s : Chain) (id : AssetId) : Option Location := s.ar.idLoc id

/-- `get_asset_id`, asset-registry/src/lib.rs L178-180. -/
def getAssetId (s : Chain) (loc : Location) : Option AssetId := s.ar.locId loc

end AssetRegistry

end Verif
