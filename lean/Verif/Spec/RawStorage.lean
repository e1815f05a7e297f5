import Verif.Model.Trie
import Verif.Spec.Scale
import Verif.Spec.Weights

/-!
# Specification: the raw storage and the size of its entries
-/

namespace Verif

open Scale

/-- Under this key, the raw storage holds these bytes: the key belongs to an entry of some pallet, whose value is
encoded as these bytes. -/
def Holds (w : Widths) (h : KeyHash) (names : Pallet → Bytes) (loc : Codec Location) (maxBlob : Nat) (s : Chain)
    (key value : Bytes) : Prop :=
  ∃ x : Slot, Fits.slot w loc.fits x ∧ x.key w h names loc = key ∧ x.value w loc maxBlob s = some value

/-- Two states have the same storage of one pallet. -/
def SamePart : Pallet → Chain → Chain → Prop
  | .teerdays, s, t => s.td = t.td
  | .teerex, s, t => s.tx = t.tx
  | .enclaveBridge, s, t => s.br = t.br
  | .sidechain, s, t => s.sc = t.sc
  | .teeracle, s, t => s.orc = t.orc
  | .claims, s, t => s.cl = t.cl
  | .assetRegistry, s, t => s.ar = t.ar

/-- How many bytes an entry has at most; `none` if there is no bound. The length of a list of up to `2 ^ 30` elements
takes up to four bytes. Locations are left to their encoding. -/
def Scale.Slot.maxSize (w : Widths) (c : Cfg) : Slot → Option Nat
  | .teerDayBonds _ => some (2 * w.bal + w.moment)
  | .pendingUnlock _ => some (w.moment + w.bal)
  | .sovereignEnclaves _ | .proxiedEnclaves _ => some 400
  | .quotingEnclave | .tcbInfo _ | .shardConfig _ | .assetIdLocation _ => none
  | .allowDebug | .allowSkip => some 1
  | .shardStatus _ => some (1 + 10 * (64 + w.block))
  | .executedUnshieldCalls _ | .exchangeRate _ _ => some 8
  | .latestConfirmation _ => some 40
  | .oracleData _ _ => some (c.maxBlob + 4)
  | .whitelist _ => some (32 * c.maxWhitelisted + 4)
  | .claim _ | .claimsTotal => some w.bal
  | .vesting _ => some (2 * w.bal + w.block)
  | .signing _ => some 1
  | .preclaim _ => some 20
  | .assetLocationId _ => some w.asset

/-- Lists in the storage are as short as the pallets want them, for example because there are none at genesis. -/
structure Short (c : Cfg) (s : Chain) : Prop where
  sovereign : ∀ a e u, s.tx.sovereign a = some e → e.url = some u → u.length ≤ 256
  proxied : ∀ p e u, s.tx.proxied p = some e → e.url = some u → u.length ≤ 256
  status : ∀ i l, s.br.status i = some l → l.length ≤ 10
  whitelist : ∀ o, (s.orc.whitelist o).length ≤ c.maxWhitelisted
  blobs : ∀ n o b, s.orc.blobs n o = some b → b.length ≤ c.maxBlob

end Verif
