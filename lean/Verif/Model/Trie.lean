import Verif.Model.Scale
import Verif.Model.Runtime

/-!
# Model of the raw storage: the bytes stored for each entry

The maps of the model as bytes. The storage layer itself (sp_io, the trie) is external.
-/

namespace Verif

namespace Scale

/-- The encoded value of an entry (the value types at the lines cited in `Slot`). Entries of maps without default are
absent (`none`) if there is no value. Simplified: items with a default (`ValueQuery`: SgxQuotingEnclaveRegistry
teerex/src/lib.rs L239-241, the two flags L253-266, Whitelists teeracle/src/lib.rs L95-104, Total claims/src/lib.rs
L121-123) read as their default when absent; here they are given as if the default was stored. The default of
ExecutedUnshieldCalls (enclave-bridge/src/lib.rs L148-151) is not used for absent entries, since the pallet asks
whether the key exists (L247). -/
def Slot.value (w : Widths) (loc : Codec Location) (maxBlob : Nat) (s : Chain) : Slot → Option Bytes
  | .teerDayBonds a => (s.td.bonds a).map (teerDayBond w).enc
  | .pendingUnlock a => (s.td.pending a).map (Scale.pendingUnlock w).enc
  | .sovereignEnclaves a => (s.tx.sovereign a).map multiEnclave.enc
  | .proxiedEnclaves a => (s.tx.proxied a).map multiEnclave.enc
  | .quotingEnclave => some (Scale.quotingEnclave.enc s.tx.qe)
  | .tcbInfo f => (s.tx.tcb f).map tcbInfoOnChain.enc
  | .allowDebug => some (bool.enc s.tx.allowDebug)
  | .allowSkip => some (bool.enc s.tx.allowSkip)
  | .shardStatus i => (s.br.status i).map (signerStatusVec w).enc
  | .shardConfig i => (s.br.config i).map (upgradableShardConfig w).enc
  | .executedUnshieldCalls h => (s.br.executed h).map (le 8).enc
  | .latestConfirmation i => (s.sc.latest i).map Scale.confirmation.enc
  | .exchangeRate p o => (s.orc.rates p o).map (le 8).enc
  | .oracleData n o => (s.orc.blobs n o).map (bounded byte maxBlob).enc
  | .whitelist o => some ((vec (arr 32)).enc (s.orc.whitelist o))
  | .claim a => (s.cl.claims a).map (le w.bal).enc
  | .claimsTotal => some ((le w.bal).enc s.cl.total)
  | .vesting a => (s.cl.vesting a).map (vestingInfo w).enc
  | .signing a => (s.cl.signing a).map statementKind.enc
  | .preclaim a => (s.cl.preclaims a).map (arr 20).enc
  | .assetIdLocation i => (s.ar.idLoc i).map loc.enc
  | .assetLocationId l => (s.ar.locId l).map (le w.asset).enc

end Scale

end Verif
