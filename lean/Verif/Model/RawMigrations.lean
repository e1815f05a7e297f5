import Verif.Model.Scale
import Verif.Model.Migrations

/-!
# Model of teerex/src/migrations.rs on the raw storage

The upgrades as operations on keys and bytes, with the database accesses that they declare.
-/

namespace Verif

namespace RawMigrations

open Scale

/-- The raw storage (external, sp_io::storage and the trie): a list of keys with values. -/
abbrev Raw := List (Bytes × Bytes)

/-- `sp_io::storage::get` (external). -/
def Raw.get (r : Raw) (k : Bytes) : Option Bytes := (r.find? fun e => e.1 == k).map (·.2)

/-- `sp_io::storage::clear` (external). -/
def Raw.kill (r : Raw) (k : Bytes) : Raw := r.filter fun e => !(e.1 == k)

/-- `sp_io::storage::set` (external). -/
def Raw.put (r : Raw) (k v : Bytes) : Raw := (k, v) :: r.kill k

/-- `StorageMap::clear(u32::MAX, None)` (external, frame_support): remove everything under a prefix; also gives the
number of removed keys (`unique`). Simplified: the limit of 2^32 - 1 keys is not reached. -/
def Raw.clear (r : Raw) (p : Bytes) : Raw × Nat :=
  (r.filter fun e => !(p.isPrefixOf e.1), (r.filter fun e => p.isPrefixOf e.1).length)

/-- `StorageValue::get` of an item with default (external, frame_support): the default if there is no value or if it
cannot be decoded. -/
def Raw.getOr {α : Type} (r : Raw) (k : Bytes) (c : Codec α) (d : α) : α :=
  (((r.get k).bind c.dec).map (·.1)).getD d

/-- The key of the storage version of a pallet (external, frame_support `STORAGE_VERSION_STORAGE_KEY_POSTFIX`). -/
def versionKey (h : KeyHash) (pallet : Bytes) : Bytes := itemPrefix h pallet (asciiBytes ":__STORAGE_VERSION__:")

/-- `on_chain_storage_version` (external, frame_support): a `u16`, zero if missing. -/
def version (h : KeyHash) (pallet : Bytes) (r : Raw) : Nat := r.getOr (versionKey h pallet) (le 2) 0

/-- Key of the v0 item `AllowSGXDebugMode`, teerex/src/migrations.rs L30-31. -/
def oldDebugKey (h : KeyHash) (pallet : Bytes) : Bytes := itemPrefix h pallet (asciiBytes "AllowSGXDebugMode")

/-- Key of the v0 item `EnclaveCount`, teerex/src/migrations.rs L23-24. -/
def countKey (h : KeyHash) (pallet : Bytes) : Bytes := itemPrefix h pallet (asciiBytes "EnclaveCount")

/-- Prefix of the v0 map `EnclaveRegistry`, teerex/src/migrations.rs L19-21. -/
def registryPrefix (h : KeyHash) (pallet : Bytes) : Bytes := itemPrefix h pallet (asciiBytes "EnclaveRegistry")

/-- Prefix of the v0 map `EnclaveIndex`, teerex/src/migrations.rs L26-28. -/
def indexPrefix (h : KeyHash) (pallet : Bytes) : Bytes := itemPrefix h pallet (asciiBytes "EnclaveIndex")

/-- Key of `SgxAllowDebugMode`, teerex/src/lib.rs L253-256. -/
def debugKey (h : KeyHash) (pallet : Bytes) : Bytes := itemPrefix h pallet (asciiBytes "SgxAllowDebugMode")

/-- Prefix of the map `SgxTcbInfo`, teerex/src/migrations.rs L47-49 and teerex/src/lib.rs L243-246. -/
def tcbPrefix (h : KeyHash) (pallet : Bytes) : Bytes := itemPrefix h pallet (asciiBytes "SgxTcbInfo")

/-- The database accesses that an upgrade declares, `T::DbWeight::get().reads_writes(reads, writes)`. Used at
teerex/src/migrations.rs L90, L102, L169, L176. -/
structure Declared where
  reads : Nat
  writes : Nat
  deriving DecidableEq

/-- `MigrateV0toV1::on_runtime_upgrade`, teerex/src/migrations.rs L75-103. -/
def v0ToV1 (h : KeyHash) (pallet : Bytes) (r : Raw) : Raw × Declared :=
  if version h pallet r ≥ 1 then (r, ⟨1, 0⟩)
  else
    let allowDebug := r.getOr (oldDebugKey h pallet) bool false
    let r := r.kill (oldDebugKey h pallet)
    let r := r.put (debugKey h pallet) (bool.enc allowDebug)
    let r := r.kill (countKey h pallet)
    let (r, enclaves) := r.clear (registryPrefix h pallet)
    let (r, indices) := r.clear (indexPrefix h pallet)
    let r := r.put (versionKey h pallet) ((le 2).enc 1)
    (r, ⟨enclaves + indices + 1, enclaves + indices + 3⟩)

/-- `MigrateV1toV2::on_runtime_upgrade`, teerex/src/migrations.rs L153-177. -/
def v1ToV2 (h : KeyHash) (pallet : Bytes) (r : Raw) : Raw × Declared :=
  if version h pallet r ≥ Migrations.inCodeVersion then (r, ⟨1, 0⟩)
  else
    let (r, infos) := r.clear (tcbPrefix h pallet)
    let r := r.put (versionKey h pallet) ((le 2).enc 2)
    (r, ⟨infos + 1, infos + 3⟩)

/-- `EnclaveV0` encoded, teerex/src/migrations.rs L8-17. -/
def enclaveV0 : Codec Migrations.EnclaveV0 :=
  iso (pair (arr 32) (pair (arr 32) (pair (le 8) (pair bytes buildMode))))
    (fun (p, m, t, u, s) => ⟨p, m, t, u, s⟩) (fun e => (e.pubkey, e.mrEnclave, e.timestamp, e.url, e.sgxMode))

/-- `SgxTcbInfoOnChainV1` encoded, teerex/src/migrations.rs L39-45. -/
def tcbInfoV1 : Codec Migrations.TcbInfoV1 :=
  iso (pair (le 8) (le 8)) (fun (i, n) => ⟨i, n⟩) (fun t => (t.issueDate, t.nextUpdate))

end RawMigrations

end Verif
