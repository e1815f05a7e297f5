import Verif.Spec.Accept
import Verif.Spec.News
import Verif.Spec.Locality

/-!
# Specification: what a successful call does

For each call the new content of every place that it may change (`Call.changes`), in terms of the arguments, the caller
and the observable state before it, without reference to the functions of the pallets. `s` is the state before, `s'` the
state after the call.
-/

namespace Verif

/-- The money of an account stays as it is, except for the lock that teerdays holds, which gets a new value. -/
def LockBecomes (s s' : Chain) (a : AccountId) (v : Nat) : Prop :=
  s'.bal.free a = s.bal.free a ∧ tdLock s' a = v ∧ ∀ id, id ≠ .teerdays → s'.bal.lock id a = s.bal.lock id a

/-- The value of a lock that is set to `v`: a currency ignores the request for a lock of zero. -/
def lockSetTo (s : Chain) (a : AccountId) (v : Nat) : Nat := if v = 0 then tdLock s a else v

/-- What the sender has after sending `v`: the rest, or nothing if that is less than the existential deposit. -/
def restAfter (c : Cfg) (s : Chain) (a : AccountId) (v : Nat) : Nat :=
  if leavesDust c s a v then 0 else s.bal.free a - v

/-- `v` went from one account to another, and a rest below the existential deposit was destroyed. Sending nothing, or to
oneself, has no effect. -/
def Sent (c : Cfg) (s s' : Chain) (src dst : AccountId) (v : Nat) : Prop :=
  (∀ id, s'.bal.lock id src = s.bal.lock id src ∧ s'.bal.lock id dst = s.bal.lock id dst) ∧
  if v = 0 ∨ src = dst then
    s'.bal.free src = s.bal.free src ∧ s'.bal.free dst = s.bal.free dst ∧ s'.bal.issuance = s.bal.issuance
  else
    s'.bal.free src = restAfter c s src v ∧ s'.bal.free dst = s.bal.free dst + v ∧
      s'.bal.issuance = s.bal.issuance - (s.bal.free src - v - restAfter c s src v)

/-- No money was sent between the two accounts. -/
def NothingSent (s s' : Chain) (src dst : AccountId) : Prop :=
  (Place.money src).same s s' ∧ (Place.money dst).same s s' ∧ Place.issuance.same s s'

/-- The stored configuration of a shard after an upgrade of it that is due was put in place. -/
def UpgradableShardConfig.enacted (u : UpgradableShardConfig) (block : Nat) : UpgradableShardConfig :=
  match u.pending, u.upgradeAt with
  | some p, some t => if t ≤ block then ⟨p, none, none⟩ else u
  | _, _ => u

/-- The signer is noted in the status of the shard as active in this block, with the measurement of their enclave. -/
def Noted (s s' : Chain) (shard : ShardId) (a : AccountId) (fp : Fingerprint) : Prop :=
  s'.br.status shard = some (touchedList (statusOf s shard) ⟨a, fp, s.block⟩)

/-- What every call for a shard by one of its enclaves does: the signer is noted, and a configuration that is due is put
in place. -/
def Acted (s s' : Chain) (shard : ShardId) (a : AccountId) : Prop :=
  Noted s s' shard a (fingerprintInEffect s shard s.block) ∧
  s'.br.config shard = (s.br.config shard).map fun u => u.enacted s.block

/-- The configuration stored for a shard when one is set: the one in effect stays until after the delay; the first one
is in effect at once. -/
def configured (c : Cfg) (s : Chain) (shard : ShardId) (cfg : ShardConfig) (delay : Nat) : UpgradableShardConfig :=
  match configInEffect s shard s.block with
  | some old => ⟨old, some cfg, some (min (s.block + delay) c.blockMax)⟩
  | none => ⟨cfg, none, none⟩

/-- The enclaves that `a` registered, after one more was registered. -/
def Enrolled (s s' : Chain) (a : AccountId) (e : SgxEnclave) : Prop :=
  if e.method.isProxied then
    s'.tx.sovereign a = s.tx.sovereign a ∧ ∀ x : EnclaveInstanceAddress, x.registrar = a →
      s'.tx.proxied x =
        if x.fingerprint = e.mrEnclave ∧ x.signer = .opaque (e.reportData.val ++ [0, 0]) then some e else s.tx.proxied x
  else
    s'.tx.sovereign a = some e ∧ ∀ x : EnclaveInstanceAddress, x.registrar = a → s'.tx.proxied x = s.tx.proxied x

/-- What arrives of a claim: nothing if it is below the existential deposit and the account does not exist, or if a
number would overflow. -/
def arriving (c : Cfg) (s : Chain) (dest : AccountId) (due : Nat) : Nat :=
  if (s.bal.free dest = 0 ∧ due < c.ed) ∨ c.balMax < s.bal.free dest + due ∨ c.balMax < s.bal.issuance + due then 0
  else due

/-- The vesting schedules of the account after a claim, and the lock for them. -/
def Vests (s s' : Chain) (g : EthAddr) (dest : AccountId) : Prop :=
  match s.cl.vesting g with
  | none => s'.bal.schedules dest = s.bal.schedules dest ∧ s'.bal.lock .vesting dest = s.bal.lock .vesting dest
  | some v =>
    if v.locked = 0 then
      s'.bal.schedules dest = s.bal.schedules dest ∧ s'.bal.lock .vesting dest = s.bal.lock .vesting dest
    else
      s'.bal.schedules dest = (if v.lockedAt s.block = 0 then [] else [v]) ∧
        s'.bal.lock .vesting dest = v.lockedAt s.block

/-- The claim of an address was paid to an account: it is gone with its conditions, the total is lower, the account got
the money and its vesting schedule. -/
def Settled (c : Cfg) (s s' : Chain) (g : EthAddr) (dest : AccountId) (due : Nat) : Prop :=
  (∀ x, s'.cl.claims x = (if x = g then none else s.cl.claims x) ∧
    s'.cl.vesting x = (if x = g then none else s.cl.vesting x) ∧
    s'.cl.signing x = (if x = g then none else s.cl.signing x)) ∧
  s'.cl.total = s.cl.total - due ∧
  s'.bal.free dest = s.bal.free dest + arriving c s dest due ∧
  s'.bal.issuance = s.bal.issuance + arriving c s dest due ∧
  s'.bal.lock .teerdays dest = s.bal.lock .teerdays dest ∧ s'.bal.lock .other dest = s.bal.lock .other dest ∧
  Vests s s' g dest

/-- A table after the entry of `old` has been moved to `new`, replacing what was there. -/
def relocated {V : Type} (m : EthAddr → Option V) (old new x : EthAddr) : Option V :=
  if x = new ∧ m old ≠ none then m old else if x = old then none else m x

/-- What a successful call does to the places that it may change. -/
def Effect (c : Cfg) (s s' : Chain) (o : Origin) : Call → Prop
  -- teerdays
  | .bond v => ∃ a, o = .signed a ∧ s'.td.bonds a = some ⟨min v (s.bal.free a), s.now, 0⟩ ∧
      LockBecomes s s' a (lockSetTo s a (min v (s.bal.free a)))
  | .bondExtra v => ∃ a, o = .signed a ∧
      let value := min (bondValue s a + min v (s.bal.free a - bondValue s a)) c.balMax
      s'.td.bonds a = some ⟨value, s.now, tokentimeNow c s a⟩ ∧ LockBecomes s s' a (lockSetTo s a value)
  | .unbond v => ∃ a, o = .signed a ∧
      s'.td.bonds a = (if bondValue s a - v < c.ed then none
        else some ⟨bondValue s a - v, s.now, tokentimeLeft c s a v⟩) ∧
      s'.td.pending a = some ((s.now + c.unlockPeriod) % (c.momentMax + 1), min v (bondValue s a))
  | .updateOther a => s'.td.bonds a = some (bondNow c s a)
  | .withdrawUnbonded => ∃ a, o = .signed a ∧ s'.td.pending a = none ∧
      LockBecomes s s' a (tdLock s a - pendingAmount s a)
  -- teerex
  | .registerSgxEnclave proof url m => ∃ a e, o = .signed a ∧ e.method = m ∧ e.url = url ∧ Attested c s a proof e ∧
      Enrolled s s' a e
  | .unregisterSovereignEnclave a => s'.tx.sovereign a = none ∧
      ∀ x : EnclaveInstanceAddress, x.registrar = a → s'.tx.proxied x = s.tx.proxied x
  | .unregisterProxiedEnclave p => s'.tx.sovereign p.registrar = s.tx.sovereign p.registrar ∧ s'.tx.proxied p = none ∧
      ∀ x : EnclaveInstanceAddress, x.registrar = p.registrar → x ≠ p → s'.tx.proxied x = s.tx.proxied x
  | .registerQuotingEnclave i g ch => SignedIdentity c s.now i g ch s'.tx.qe
  | .registerTcbInfo i g ch => ∃ f t, SignedTcbInfo c s.now i g ch f t ∧ s'.tx.tcb f = some t ∧
      ∀ f', f' ≠ f → s'.tx.tcb f' = s.tx.tcb f'
  | .setSecurityFlags skip debug => s'.tx.allowSkip = skip ∧ s'.tx.allowDebug = debug
  -- enclave-bridge
  | .invoke _ _ => True
  | .confirmProcessedParentchainBlock shard _ _ _ => ∃ a, o = .signed a ∧ Acted s s' shard a ∧
      s'.sc.latest shard = s.sc.latest shard
  | .shieldFunds shard _ amount => ∃ a, o = .signed a ∧ Sent c s s' a shard amount
  | .unshieldFunds shard ben amount h => ∃ a, o = .signed a ∧ Acted s s' shard a ∧
      s'.sc.latest shard = s.sc.latest shard ∧
      match s.br.executed h with
      | none => s'.br.executed h = some 1 ∧ Sent c s s' shard ben amount
      | some n => s'.br.executed h = some ((n + 1) % 2 ^ 64) ∧ NothingSent s s' shard ben
  | .publishHash _ _ _ => ∃ a e, o = .signed a ∧ s.tx.sovereign a = some e ∧ Noted s s' e.mrEnclave a e.mrEnclave ∧
      s'.br.config e.mrEnclave = s.br.config e.mrEnclave ∧ s'.sc.latest e.mrEnclave = s.sc.latest e.mrEnclave
  | .updateShardConfig shard cfg delay => s'.br.config shard = some (configured c s shard cfg delay) ∧
      s'.sc.latest shard = s.sc.latest shard ∧
      ((o = .root ∧ s'.br.status shard = s.br.status shard) ∨
       ∃ a e, o = .signed a ∧ s.tx.sovereign a = some e ∧ Noted s s' shard a e.mrEnclave)
  | .purgeEnclave shard subject =>
      s'.br.status shard = some ((statusOf s shard).filter fun i => i.signer ≠ subject) ∧
      s'.br.config shard = s.br.config shard ∧ s'.sc.latest shard = s.sc.latest shard
  -- sidechain
  | .confirmImportedSidechainBlock shard _ cand => ∃ a, o = .signed a ∧ Acted s s' shard a ∧
      ((Primary s shard a ∧ s'.sc.latest shard = some cand) ∨
       (¬ Primary s shard a ∧ s'.sc.latest shard = s.sc.latest shard))
  -- teeracle
  | .addToWhitelist src fp => s'.orc.whitelist src = s.orc.whitelist src ++ [fp]
  | .removeFromWhitelist src fp => s'.orc.whitelist src = (s.orc.whitelist src).filter fun x => x ≠ fp
  | .updateOracle name src blob => s'.orc.blobs name src = some blob
  | .updateExchangeRate src pair rate => s'.orc.rates pair src = if rate = some 0 then none else rate
  -- claims
  | .claims (.claim dest sig) => ∃ g due, SignedBy c g sig dest [] ∧ s.cl.claims g = some due ∧ Settled c s s' g dest due ∧
      s'.cl.preclaims = s.cl.preclaims
  | .claims (.claimAttest dest sig st) => ∃ g due, SignedBy c g sig dest st ∧ s.cl.claims g = some due ∧
      Settled c s s' g dest due ∧ s'.cl.preclaims = s.cl.preclaims
  | .claims (.attest _) => ∃ a g due, o = .signed a ∧ s.cl.preclaims a = some g ∧ s.cl.claims g = some due ∧
      Settled c s s' g a due ∧ ∀ x, s'.cl.preclaims x = if x = a then none else s.cl.preclaims x
  | .claims (.mintClaim who value vest st) =>
      s'.cl.total = (s.cl.total + value) % (c.balMax + 1) ∧ s'.cl.preclaims = s.cl.preclaims ∧
      ∀ x, s'.cl.claims x = (if x = who then some value else s.cl.claims x) ∧
        s'.cl.vesting x = (if x = who ∧ vest ≠ none then vest else s.cl.vesting x) ∧
        s'.cl.signing x = (if x = who ∧ st ≠ none then st else s.cl.signing x)
  | .claims (.moveClaim old new preclaim) => s'.cl.total = s.cl.total ∧
      (∀ x, s'.cl.claims x = relocated s.cl.claims old new x ∧ s'.cl.vesting x = relocated s.cl.vesting old new x ∧
        s'.cl.signing x = relocated s.cl.signing old new x) ∧
      ∀ p, s'.cl.preclaims p =
        if preclaim = some p ∧ s.cl.preclaims p = some old then some new else s.cl.preclaims p
  -- asset-registry
  | .registerReserveAsset id loc =>
      (∀ x, s'.ar.idLoc x = if x = id then some loc else s.ar.idLoc x) ∧
      ∀ l, s'.ar.locId l = if l = loc then some id else s.ar.locId l
  | .unregisterReserveAsset id =>
      (∀ x, s'.ar.idLoc x = if x = id then none else s.ar.idLoc x) ∧
      ∀ l, s'.ar.locId l = if s.ar.idLoc id = some l then none else s.ar.locId l
  -- xcm-transactor
  | .sendSwapUmp self other w fee => s'.xt.sent = (⟨1, []⟩, swapProgram c.ownParaId self other w fee) :: s.xt.sent
  -- pallet balances
  | .balTransfer dst amount => ∃ a, o = .signed a ∧ Sent c s s' a dst amount

end Verif
