import Verif.Model.Runtime

/-!
# Specification: which storage a call may touch
-/

namespace Verif

/-- The parts of the state: currency (with vesting), the storage of each pallet, time and block number, and the
external assets. -/
inductive Part where
  | currency | teerdays | teerex | bridge | sidechain | teeracle | claims | assetRegistry | xcm | clock | assets
  deriving DecidableEq

/-- A part is the same in two states. -/
def Part.Same (s s' : Chain) : Part → Prop
  | .currency => s'.bal = s.bal
  | .teerdays => s'.td = s.td
  | .teerex => s'.tx = s.tx
  | .bridge => s'.br = s.br
  | .sidechain => s'.sc = s.sc
  | .teeracle => s'.orc = s.orc
  | .claims => s'.cl = s.cl
  | .assetRegistry => s'.ar = s.ar
  | .xcm => s'.xt = s.xt
  | .clock => s'.now = s.now ∧ s'.block = s.block
  | .assets => s'.assets = s.assets

/-- The parts a call is documented to work on. -/
def Call.parts : Call → List Part
  | .bond _ | .bondExtra _ | .withdrawUnbonded => [.teerdays, .currency]
  | .unbond _ | .updateOther _ => [.teerdays]
  | .registerSgxEnclave .. | .unregisterSovereignEnclave _ | .unregisterProxiedEnclave _
  | .registerQuotingEnclave .. | .registerTcbInfo .. | .setSecurityFlags .. => [.teerex]
  | .invoke .. | .confirmProcessedParentchainBlock .. | .publishHash .. | .updateShardConfig ..
  | .purgeEnclave .. => [.bridge]
  | .shieldFunds .. | .unshieldFunds .. => [.bridge, .currency]
  | .confirmImportedSidechainBlock .. => [.bridge, .sidechain]
  | .addToWhitelist .. | .removeFromWhitelist .. | .updateOracle .. | .updateExchangeRate .. => [.teeracle]
  | .claims (.mintClaim ..) | .claims (.moveClaim ..) => [.claims]
  | .claims _ => [.claims, .currency]
  | .registerReserveAsset .. | .unregisterReserveAsset _ => [.assetRegistry]
  | .sendSwapUmp .. => [.xcm]
  | .balTransfer .. => [.currency]

end Verif
