import Verif.Spec.Growth
import Verif.Spec.Teerex

/-!
# Specification: what an account without a role can do
-/

namespace Verif

open Scale

/-- The account has no role: it has no enclave of its own, nothing to attest, and is not among those whom the runtime lets manage
assets, swap parachain slots or move claims. -/
structure Outsider (c : Cfg) (s : Chain) (a : AccountId) : Prop where
  enclave : s.tx.sovereign a = none
  preclaim : s.cl.preclaims a = none
  assets : c.assetOrigin (.signed a) = false
  swaps : c.swapOrigin (.signed a) = false
  moves : c.moveClaimOrigin (.signed a) = false

/-- The entries that a call of such an account may change, and how. -/
inductive OutsiderMay (c : Cfg) (s s' : Chain) (a : AccountId) : Slot → Prop
  | bond : OutsiderMay c s s' a (.teerDayBonds a)
  | unlock : OutsiderMay c s s' a (.pendingUnlock a)
  /-- bring the bond of somebody up to date: its value stays, tokentime does not go down -/
  | update (b x y) : s.td.bonds b = some x → s'.td.bonds b = some y → y.value = x.value →
      (x.tokentime ≤ c.balMax → x.tokentime ≤ y.tokentime) → OutsiderMay c s s' a (.teerDayBonds b)
  /-- remove an enclave that did not renew its attestation -/
  | staleSovereign (b e) : s.tx.sovereign b = some e → e.timestamp + c.maxRenewal < s.now → s'.tx.sovereign b = none →
      OutsiderMay c s s' a (.sovereignEnclaves b)
  | staleProxied (p e) : s.tx.proxied p = some e → e.timestamp + c.maxRenewal < s.now → s'.tx.proxied p = none →
      OutsiderMay c s s' a (.proxiedEnclaves p)
  /-- register an attested enclave for themselves, which ends their being without a role, … -/
  | sovereign (proof e) : s'.tx.sovereign a = some e → Attested c s a proof e → e.reportData.val.take 32 = a.val →
      OutsiderMay c s s' a (.sovereignEnclaves a)
  /-- … or for others, under their own name -/
  | proxied (p proof e) : p.registrar = a → s'.tx.proxied p = some e → Attested c s a proof e →
      OutsiderMay c s s' a (.proxiedEnclaves p)
  /-- hand in documents signed by Intel -/
  | tcb (f i d g ch) : s'.tx.tcb f = some i → SignedTcbInfo c s.now d g ch f i → OutsiderMay c s s' a (.tcbInfo f)
  | identity (d g ch) : SignedIdentity c s.now d g ch s'.tx.qe → OutsiderMay c s s' a .quotingEnclave

/-- The entries that no call of such an account can change: shards, sidechains, oracles, claims, assets and the security flags. -/
def Scale.Slot.guarded : Slot → Bool
  | .teerDayBonds _ | .pendingUnlock _ | .sovereignEnclaves _ | .proxiedEnclaves _ | .tcbInfo _ | .quotingEnclave => false
  | _ => true

end Verif
