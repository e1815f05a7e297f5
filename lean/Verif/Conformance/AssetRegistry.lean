import Verif.Conformance.Basic

/-!
# asset-registry/src/tests.rs and xcm-transactor/src/tests.rs on the model

Network ids, body ids and body parts of XCM are numbers in the model; the numbers chosen here have no meaning.
-/

namespace Verif.Conf.Assets

/-- asset-registry/src/mock.rs L85-92: the origin is root. -/
def c : Cfg := { mockCfg with assetOrigin := fun o => match o with | .root => true | _ => false }
def ASSET : AssetId := 10
/-- `new_test_ext`, asset-registry/src/mock.rs L136-156: asset 10 exists. -/
def s0 : Chain := { mock with assets := fun i => if i = ASSET then some 1 else none }
/-- `asset_hub_asset_location`, asset-registry/src/tests.rs L23-33. -/
def hub : Location := { parents := 1, interior := [.parachain 1000, .palletInstance 50, .generalIndex 1] }
def reg (i : AssetId) (l : Location) : Op := .ext .root (.registerReserveAsset i l)
def unreg (i : AssetId) : Op := .ext .root (.unregisterReserveAsset i)

/-- `register_reserve_asset_works`, asset-registry/src/tests.rs L39-56. -/
example : play s0 [ok c (reg ASSET hub), check fun s => s.ar.idLoc ASSET = some hub,
    check fun s => s.ar.locId hub = some ASSET] = true := by decide +kernel

/-- `cannot_register_unexisting_asset`, asset-registry/src/tests.rs L59-72. -/
example : play s0 [noop c (reg 9999 hub) .assetDoesNotExist] = true := by decide +kernel

/-- `cannot_double_register`, asset-registry/src/tests.rs L75-92. -/
example : play s0 [ok c (reg ASSET hub), noop c (reg ASSET hub) .assetAlreadyRegistered] = true := by
  decide +kernel

/-- `valid_locations_succeed`, asset-registry/src/tests.rs L95-156. -/
example : (([[.parachain 1000, .palletInstance 1], [.parachain 1000, .palletInstance 1, .generalIndex 2], [],
    [.parachain 1000, .palletInstance 2, .accountId32 (some .rococo) (Arr.zero 32)],
    [.parachain 2000, .accountKey20 (some (.ethereum 56)) (Arr.zero 20)]] : List (List Junction)).all fun i =>
    play s0 [ok c (reg ASSET { parents := 1, interior := i })]) = true := by decide +kernel

/-- `invalid_locations_fail`, asset-registry/src/tests.rs L159-187. -/
example : play s0 [noop c (reg ASSET { parents := 1, interior := [.parachain 1000, .plurality .executive .voice] }) .wrongLocation,
    noop c (reg ASSET { parents := 1, interior := [.parachain 1000, .generalIndex 1] }) .wrongLocation] = true := by
  decide +kernel

/-- `unregister_reserve_asset_works`, asset-registry/src/tests.rs L194-210. -/
example : play s0 [ok c (reg ASSET hub), ok c (unreg ASSET), check fun s => s.ar.idLoc ASSET = none,
    check fun s => s.ar.locId hub = none] = true := by decide +kernel

/-- `cannot_register_unregistered_asset`, asset-registry/src/tests.rs L213-220. -/
example : play s0 [noop c (unreg ASSET) .assetIsNotRegistered] = true := by decide +kernel

end Verif.Conf.Assets

namespace Verif.Conf.Xcm

/-- xcm-transactor/src/mock.rs L111-147: the origin is root, the router accepts everything. -/
def c : Cfg := { mockCfg with
  swapOrigin := fun o => match o with | .root => true | _ => false
  shellParaId := 2223
  ksmParaId := 2015
  ownParaId := 2015
  sendXcm := fun _ _ _ => .ok (Arr.zero 32) }
def swap (o : Origin) (a b : Nat) : Op := .ext o (.sendSwapUmp a b (10000000000, 0) 10000000000)

/-- `swap_ump_fails_not_privileged`, xcm-transactor/src/tests.rs L34-48. -/
example : play mock [noop c (swap (.signed alice) 2015 2014) .badOrigin] = true := by decide +kernel

/-- `swap_ump_fails_equal_para_ids`, xcm-transactor/src/tests.rs L51-64. -/
example : play mock [noop c (swap .root 2015 2015) .swapIdsEqual] = true := by decide +kernel

/-- `swap_ump_fails_1_id_invalid`, xcm-transactor/src/tests.rs L67-81. -/
example : play mock [noop c (swap .root 2223 20000) .invalidSwapIds] = true := by decide +kernel

/-- `swap_ump_fails_2_id_invalid`, xcm-transactor/src/tests.rs L84-98. -/
example : play mock [noop c (swap .root 2015 20000) .invalidSwapIds] = true := by decide +kernel

/-- `swap_ump_success`, xcm-transactor/src/tests.rs L101-117. -/
example : play mock [ok c (swap .root 2223 2015),
    check fun s => s.xt.events.any fun e => match e with | .swapTransactSent .. => true | _ => false] = true := by
  decide +kernel

/-- `decode_swap_ump_in_kusama_success`, xcm-transactor/src/tests.rs L120-134. The decoder of the Kusama runtime is not
part of /repo and is fetched from a node when the test is compiled; the decoder of /repo's own type takes its
place here, so this is weaker than the test. -/
example : XcmTransactor.RelayRuntimeCall.decode (XcmTransactor.swapCall 2223 2015).encode =
    some (.registrar (.swap 2223 2015), []) := by decide +kernel

end Verif.Conf.Xcm
