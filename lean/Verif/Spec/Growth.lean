import Verif.Spec.Weights
import Verif.Model.Scale
import Verif.Model.Runtime

/-!
# Specification: how many storage entries there are
-/

namespace Verif

open Scale

/-- The entry exists. Items that are a single value always exist. A whitelist exists if it is not empty. -/
def Scale.Slot.exists (s : Chain) : Slot → Prop
  | .teerDayBonds a => s.td.bonds a ≠ none
  | .pendingUnlock a => s.td.pending a ≠ none
  | .sovereignEnclaves a => s.tx.sovereign a ≠ none
  | .proxiedEnclaves a => s.tx.proxied a ≠ none
  | .tcbInfo f => s.tx.tcb f ≠ none
  | .shardStatus i => s.br.status i ≠ none
  | .shardConfig i => s.br.config i ≠ none
  | .executedUnshieldCalls h => s.br.executed h ≠ none
  | .latestConfirmation i => s.sc.latest i ≠ none
  | .exchangeRate p q => s.orc.rates p q ≠ none
  | .oracleData n q => s.orc.blobs n q ≠ none
  | .whitelist q => s.orc.whitelist q ≠ []
  | .claim a => s.cl.claims a ≠ none
  | .vesting a => s.cl.vesting a ≠ none
  | .signing a => s.cl.signing a ≠ none
  | .preclaim a => s.cl.preclaims a ≠ none
  | .assetIdLocation i => s.ar.idLoc i ≠ none
  | .assetLocationId l => s.ar.locId l ≠ none
  | .quotingEnclave | .allowDebug | .allowSkip | .claimsTotal => True

/-- How many entries an operation can create. -/
def Op.creations : Op → Nat
  | .ext _ k => match k with
    | .bond _ | .unbond _ | .registerSgxEnclave .. | .registerTcbInfo .. => 1
    | .confirmProcessedParentchainBlock .. | .publishHash .. => 1
    | .unshieldFunds .. | .updateShardConfig .. | .confirmImportedSidechainBlock .. => 2
    | .addToWhitelist .. | .updateOracle .. | .updateExchangeRate .. => 1
    | .claims (.mintClaim ..) | .claims (.moveClaim ..) => 3
    | .registerReserveAsset .. => 2
    | _ => 0
  | _ => 0

/-- The operation, made in state `s`, can remove this entry. -/
inductive Removes (c : Cfg) (s : Chain) : Op → Slot → Prop
  /-- whoever unbonds so much that less than the existential deposit is left -/
  | unbond (a v b) : s.td.bonds a = some b → b.value - v < c.ed → Removes c s (.ext (.signed a) (.unbond v)) (.teerDayBonds a)
  | withdraw (a) : Removes c s (.ext (.signed a) .withdrawUnbonded) (.pendingUnlock a)
  | sovereign (b a) : Removes c s (.ext (.signed b) (.unregisterSovereignEnclave a)) (.sovereignEnclaves a)
  | proxied (b p) : Removes c s (.ext (.signed b) (.unregisterProxiedEnclave p)) (.proxiedEnclaves p)
  /-- no rate or the rate zero -/
  | rate (a src pair r) : r.getD 0 = 0 → Removes c s (.ext (.signed a) (.updateExchangeRate src pair r)) (.exchangeRate pair src)
  /-- the last code on the whitelist -/
  | whitelist (src fp) : (∀ x ∈ s.orc.whitelist src, x = fp) → Removes c s (.ext .root (.removeFromWhitelist src fp)) (.whitelist src)
  /-- a payout -/
  | paid (o k e x) : (x = .claim e ∨ x = .vesting e ∨ x = .signing e) →
      ((∃ d sig, k = .claim d sig ∧ Claims.ethRecover c sig (Claims.toAsciiHex d.val) [] = some e) ∨
       (∃ d sig st, k = .claimAttest d sig st ∧ Claims.ethRecover c sig (Claims.toAsciiHex d.val) st = some e) ∨
       (∃ a st, o = .signed a ∧ k = .attest st ∧ s.cl.preclaims a = some e)) → Removes c s (.ext o (.claims k)) x
  | preclaim (a st) : Removes c s (.ext (.signed a) (.claims (.attest st))) (.preclaim a)
  /-- a move to another address -/
  | moved (o old new p x) : (x = .claim old ∨ x = .vesting old ∨ x = .signing old) → old ≠ new →
      Removes c s (.ext o (.claims (.moveClaim old new p))) x
  | asset (o i x l) : s.ar.idLoc i = some l → (x = .assetIdLocation i ∨ x = .assetLocationId l) →
      Removes c s (.ext o (.unregisterReserveAsset i)) x

/-- Entries that no operation removes. -/
def Scale.Slot.permanent : Slot → Bool
  | .tcbInfo _ | .shardStatus _ | .shardConfig _ | .executedUnshieldCalls _ | .latestConfirmation _ | .oracleData .. => true
  | .quotingEnclave | .allowDebug | .allowSkip | .claimsTotal => true
  | _ => false

end Verif
