import Verif.Model.RawMigrations
import Verif.Spec.Scale

/-!
# Specification: storage upgrades on the raw storage
-/

namespace Verif

open Scale RawMigrations

/-- The storage items that only the upgrades touch. -/
def upgradeItems : List String :=
  ["EnclaveRegistry", "EnclaveCount", "EnclaveIndex", "AllowSGXDebugMode", ":__STORAGE_VERSION__:"]

/-- The hash of the names (external) also tells the items of the upgrades from each other and from those in use.
These are finitely many fixed names. -/
def UpgradeApart (h : KeyHash) (names : Scale.Pallet → Bytes) : Prop :=
  NamesApart h names ∧
    (∀ a ∈ upgradeItems, ∀ b ∈ upgradeItems, h.twox128 (asciiBytes a) = h.twox128 (asciiBytes b) → a = b) ∧
    ∀ a ∈ upgradeItems, ∀ s : Slot, h.twox128 (asciiBytes a) ≠ h.twox128 (asciiBytes s.item)

/-- At most `n` entries of the raw storage differ. -/
def EntriesDiffer (n : Nat) (r t : Raw) : Prop :=
  ∃ l : List Bytes, l.length ≤ n ∧ ∀ k, k ∉ l → t.get k = r.get k

/-- The raw storage holds the storage of teerex: every entry is encoded under its key. Items with default may be
absent. -/
structure Represents (w : Widths) (h : KeyHash) (names : Scale.Pallet → Bytes) (loc : Codec Location) (r : Raw)
    (s : Migrations.St) : Prop where
  version : RawMigrations.version h (names .teerex) r = s.version
  registry : ∀ n, n < 2 ^ 64 →
    r.get (registryPrefix h (names .teerex) ++ blakeConcat h (le 8) n) = (s.v0Registry n).map enclaveV0.enc
  count : r.get (countKey h (names .teerex)) = s.v0Count.map (le 8).enc
  index : ∀ a, r.get (indexPrefix h (names .teerex) ++ blakeConcat h (arr 32) a) = (s.v0Index a).map (le 8).enc
  oldDebug : r.get (oldDebugKey h (names .teerex)) = s.v0AllowDebug.map bool.enc
  tcb : ∀ f, r.get ((Slot.tcbInfo f).key w h names loc) =
    (s.tcbInfo f).map (Sum.elim tcbInfoV1.enc tcbInfoOnChain.enc)
  debug : r.getOr (Slot.allowDebug.key w h names loc) bool false = s.tx.allowDebug
  skip : r.getOr (Slot.allowSkip.key w h names loc) bool false = s.tx.allowSkip
  quoting : ∀ b, r.get (Slot.quotingEnclave.key w h names loc) = some b → b = Scale.quotingEnclave.enc s.tx.qe
  sovereign : ∀ a, r.get ((Slot.sovereignEnclaves a).key w h names loc) = (s.tx.sovereign a).map multiEnclave.enc
  proxied : ∀ a, Fits.slot w loc.fits (.proxiedEnclaves a) →
    r.get ((Slot.proxiedEnclaves a).key w h names loc) = (s.tx.proxied a).map multiEnclave.enc

/-- Runs of the two upgrades (`true`: from 0 to 1, `false`: from 1 to 2) in any order and number. -/
def upgradeAll (h : KeyHash) (pallet : Bytes) : List Bool → Raw → Raw
  | [], r => r
  | true :: l, r => upgradeAll h pallet l (v0ToV1 h pallet r).1
  | false :: l, r => upgradeAll h pallet l (v1ToV2 h pallet r).1

end Verif
