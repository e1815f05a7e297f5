import Verif.Spec.Weights

/-!
# Specification: what root cannot change by the calls of these pallets
-/

namespace Verif

open Scale

/-- The entries that no call made by root can change: bonds, enclaves, what Intel signed, executed payouts, finalised blocks and
what oracles reported. -/
def Scale.Slot.beyondRoot : Slot → Bool
  | .teerDayBonds _ | .pendingUnlock _ | .sovereignEnclaves _ | .proxiedEnclaves _ | .quotingEnclave | .tcbInfo _
  | .executedUnshieldCalls _ | .latestConfirmation _ | .exchangeRate _ _ | .oracleData _ _ => true
  | _ => false

end Verif
