import Verif.Spec.Scale

/-!
# Specification: where the storage of the pallets is, and what is there

A table for readers of the raw storage: for every entry the pallet, the name of the item, the bytes after the hashes of
the two names, and the bytes of the value. `h` are the hashes of the chain (`twox_128`, `blake2_128`).
-/

namespace Verif

namespace Layout

open Scale (KeyHash Pallet Slot Widths)

/-- A key in a map with `Blake2_128Concat`: its hash and the key itself. -/
def hashed (h : KeyHash) (k : Bytes) : Bytes := (h.blake128 k).val ++ k

/-- Pallet, name of the item, and what follows the hashes of these names. -/
def place (w : Widths) (h : KeyHash) (loc : Location → Bytes) : Slot → Pallet × String × Bytes
  | .teerDayBonds a => (.teerdays, "TeerDayBonds", hashed h a.val)
  | .pendingUnlock a => (.teerdays, "PendingUnlock", hashed h a.val)
  | .sovereignEnclaves a => (.teerex, "SovereignEnclaves", hashed h a.val)
  | .proxiedEnclaves a => (.teerex, "ProxiedEnclaves", hashed h (address a))
  | .quotingEnclave => (.teerex, "SgxQuotingEnclaveRegistry", [])
  | .tcbInfo f => (.teerex, "SgxTcbInfo", hashed h f.val)
  | .allowDebug => (.teerex, "SgxAllowDebugMode", [])
  | .allowSkip => (.teerex, "AllowSkippingAttestation", [])
  | .shardStatus i => (.enclaveBridge, "ShardStatus", hashed h i.val)
  | .shardConfig i => (.enclaveBridge, "ShardConfigRegistry", hashed h i.val)
  | .executedUnshieldCalls x => (.enclaveBridge, "ExecutedUnshieldCalls", hashed h x.val)
  | .latestConfirmation i => (.sidechain, "LatestSidechainBlockConfirmation", hashed h i.val)
  | .exchangeRate p o => (.teeracle, "ExchangeRates", hashed h (text p) ++ hashed h (text o))
  | .oracleData n o => (.teeracle, "OracleData", hashed h (text n) ++ hashed h (text o))
  | .whitelist o => (.teeracle, "Whitelists", hashed h (text o))
  | .claim g => (.claims, "Claims", g.val)
  | .claimsTotal => (.claims, "Total", [])
  | .vesting g => (.claims, "Vesting", g.val)
  | .signing g => (.claims, "Signing", g.val)
  | .preclaim a => (.claims, "Preclaims", a.val)
  | .assetIdLocation i => (.assetRegistry, "AssetIdLocation", hashed h (number w.asset i))
  | .assetLocationId l => (.assetRegistry, "AssetLocationId", hashed h (loc l))

/-- The storage key: both names hashed, then the rest. -/
def key (w : Widths) (h : KeyHash) (names : Pallet → Bytes) (loc : Location → Bytes) (x : Slot) : Bytes :=
  (h.twox128 (names (place w h loc x).1)).val ++ (h.twox128 (asciiBytes (place w h loc x).2.1)).val ++ (place w h loc x).2.2

/-- The bytes of an entry; `none` if there is no entry. Items with a default (the quoting enclave, the two flags, the
whitelists, the total of the claims) are given as if the default was stored. -/
def value (w : Widths) (loc : Location → Bytes) (s : Chain) : Slot → Option Bytes
  | .teerDayBonds a => (s.td.bonds a).map (bond w)
  | .pendingUnlock a => (s.td.pending a).map (pending w)
  | .sovereignEnclaves a => (s.tx.sovereign a).map enclave
  | .proxiedEnclaves a => (s.tx.proxied a).map enclave
  | .quotingEnclave => some (quotingEnclave s.tx.qe)
  | .tcbInfo f => (s.tx.tcb f).map tcbInfo
  | .allowDebug => some (flag s.tx.allowDebug)
  | .allowSkip => some (flag s.tx.allowSkip)
  | .shardStatus i => (s.br.status i).map (shardStatus w)
  | .shardConfig i => (s.br.config i).map (upgradable w)
  | .executedUnshieldCalls x => (s.br.executed x).map (number 8)
  | .latestConfirmation i => (s.sc.latest i).map confirmation
  | .exchangeRate p o => (s.orc.rates p o).map (number 8)
  | .oracleData n o => (s.orc.blobs n o).map text
  | .whitelist o => some (list (fun a : AccountId => a.val) (s.orc.whitelist o))
  | .claim g => (s.cl.claims g).map (number w.bal)
  | .claimsTotal => some (number w.bal s.cl.total)
  | .vesting g => (s.cl.vesting g).map (vesting w)
  | .signing g => (s.cl.signing g).map statement
  | .preclaim a => (s.cl.preclaims a).map (·.val)
  | .assetIdLocation i => (s.ar.idLoc i).map loc
  | .assetLocationId l => (s.ar.locId l).map (number w.asset)

end Layout

end Verif
