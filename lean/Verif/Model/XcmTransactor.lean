import Verif.Model.State

/-!
# Model of xcm-transactor/src/lib.rs and primitives/xcm-transactor/src/lib.rs
-/

namespace Verif

namespace XcmTransactor

/-- `RegistrarCall`, primitives/xcm-transactor/src/lib.rs L56-61 (`ParaId` is a `u32`). -/
inductive RegistrarCall where
  | swap (this other : Nat)
  deriving DecidableEq

/-- `RelayRuntimeCall`, primitives/xcm-transactor/src/lib.rs L66-71 and L77-82 (both runtimes use index 70). -/
inductive RelayRuntimeCall where
  | registrar (call : RegistrarCall)
  deriving DecidableEq

/-- Derived `Encode for RegistrarCall`, primitives/xcm-transactor/src/lib.rs L56-61 (variant index 3). -/
def RegistrarCall.encode : RegistrarCall → Bytes
  | .swap this other => 3 :: (toLE 4 this ++ toLE 4 other)

/-- Derived `Encode for RelayRuntimeCall`, primitives/xcm-transactor/src/lib.rs L66-71 (variant index 70). -/
def RelayRuntimeCall.encode : RelayRuntimeCall → Bytes
  | .registrar call => 70 :: call.encode

/-- Derived `Decode for RegistrarCall`, primitives/xcm-transactor/src/lib.rs L56-61. -/
def RegistrarCall.decode : Bytes → Option (RegistrarCall × Bytes)
  | 3 :: b => do
    let (this, b) ← rdLE 4 b
    let (other, b) ← rdLE 4 b
    some (.swap this other, b)
  | _ => none

/-- Derived `Decode for RelayRuntimeCall`, primitives/xcm-transactor/src/lib.rs L66-71. -/
def RelayRuntimeCall.decode : Bytes → Option (RelayRuntimeCall × Bytes)
  | 70 :: b => (RegistrarCall.decode b).map fun p => (.registrar p.1, p.2)
  | _ => none

/-- `swap_call`, primitives/xcm-transactor/src/lib.rs L95-97. -/
def swapCall (self other : Nat) : RelayRuntimeCall := .registrar (.swap self other)

/-- `construct_transact_xcm`, primitives/xcm-transactor/src/lib.rs L99-119. `ownPara` is `Id::get()`. -/
def constructTransactXcm (ownPara : Nat) (call : RelayRuntimeCall) (weight : Nat × Nat) (fee : Nat) : Xcm :=
  let asset : Asset := { id := { parents := 1, interior := [] }, fun_ := .fungible fee }
  [ .withdrawAsset [asset],
    .buyExecutionUnlimited asset,
    .transact .native weight call.encode,
    .refundSurplus,
    .depositAssetAll { parents := 1, interior := [.parachain ownPara] } ]

/-- `From<SendError> for Error<T>`, xcm-transactor/src/lib.rs L94-106. -/
def sendErr : SendError → Err
  | .notApplicable => .unreachableDest
  | .transport => .transport
  | .unroutable => .unroutable
  | .destinationUnsupported => .destinationUnsupported
  | .fees => .feesNotMet
  | _ => .xcmSendError

/-- `Parent.into()`, xcm-transactor/src/lib.rs L148. -/
def parent : Location := { parents := 1, interior := [] }

/-- `send_swap_ump`, xcm-transactor/src/lib.rs L127-156. The router (`XcmSender`, external) answers with a hash or
an error, depending on what was sent before; a message is only sent if it answers with a hash. -/
def sendSwapUmp (c : Cfg) (s : Chain) (o : Origin) (self other : Nat) (weight : Nat × Nat) (fee : Nat) :
    Except Err Chain := do
  ensure (c.swapOrigin o) .badOrigin
  ensure (decide (self ≠ other)) .swapIdsEqual
  ensure ([c.shellParaId, c.ksmParaId].contains self) .invalidSwapIds
  ensure ([c.shellParaId, c.ksmParaId].contains other) .invalidSwapIds
  let message := constructTransactXcm c.ownParaId (swapCall self other) weight fee
  let hash ← mapErr sendErr (c.sendXcm s.xt.sent parent message)
  .ok { s with xt :=
    { sent := (parent, message) :: s.xt.sent
      events := .swapTransactSent self other :: .sentXcm hash :: s.xt.events } }

end XcmTransactor

end Verif
