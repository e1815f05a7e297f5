import Verif.Spec.Teerdays
import Verif.Spec.Bridge
import Verif.Spec.Teerex
import Verif.Spec.Claims
import Verif.Spec.Xcm

/-!
# Specification: what each call announces

For each call the events that a successful execution adds, in terms of the arguments, the caller and the observable
state before and after. Newest event first.
-/

namespace Verif

/-- New events, by pallet. -/
structure News where
  td : List TdEvent := []
  tx : List TxEvent := []
  br : List BrEvent := []
  sc : List ScEvent := []
  orc : List OrEvent := []
  cl : List ClEvent := []
  ar : List ArEvent := []
  xt : List XtEvent := []

/-- Exactly these events were added between two states. -/
structure News.Added (n : News) (s s' : Chain) : Prop where
  td : s'.td.events = n.td ++ s.td.events
  tx : s'.tx.events = n.tx ++ s.tx.events
  br : s'.br.events = n.br ++ s.br.events
  sc : s'.sc.events = n.sc ++ s.sc.events
  orc : s'.orc.events = n.orc ++ s.orc.events
  cl : s'.cl.events = n.cl ++ s.cl.events
  ar : s'.ar.events = n.ar ++ s.ar.events
  xt : s'.xt.events = n.xt ++ s.xt.events

/-- The bond of `a`, brought up to date. -/
def bondNow (c : Cfg) (s : Chain) (a : AccountId) : Bond := ⟨bondValue s a, s.now, tokentimeNow c s a⟩

/-- The registration that `a` made is stored, under their account or under an instance address of theirs. -/
def Registered (s : Chain) (a : AccountId) (e : SgxEnclave) : Prop :=
  s.tx.sovereign a = some e ∨ ∃ g, s.tx.proxied ⟨e.mrEnclave, a, g⟩ = some e

/-- The tokentime that is left when `v` is unbonded: the tokentime of each bonded unit, rounded down, for each unit that
stays. -/
def tokentimeLeft (c : Cfg) (s : Chain) (a : AccountId) (v : Nat) : Nat :=
  tokentimeNow c s a / bondValue s a * (bondValue s a - v)

/-- `addr` had `amount` to claim and has nothing any more. -/
def Collected (s s' : Chain) (addr : EthAddr) (amount : Nat) : Prop :=
  s.cl.claims addr = some amount ∧ s'.cl.claims addr = none

/-- What a successful call announces. -/
def Announces (c : Cfg) (s s' : Chain) (o : Origin) (n : News) : Call → Prop
  | .bond v => ∃ a, o = .signed a ∧ n = { td := [.bonded a (min v (s.bal.free a))] }
  | .bondExtra v => ∃ a, o = .signed a ∧
      n = { td := [.bonded a (min v (s.bal.free a - bondValue s a)), .tokenTimeUpdated a (bondNow c s a)] }
  | .unbond v => ∃ a burned, o = .signed a ∧ burned + tokentimeLeft c s a v = tokentimeNow c s a ∧
      n = { td := [.unbonded a (min v (bondValue s a)) burned, .tokenTimeUpdated a (bondNow c s a)] } ∧
      ∀ b, s'.td.bonds a = some b → b.tokentime = tokentimeLeft c s a v
  | .updateOther a => n = { td := [.tokenTimeUpdated a (bondNow c s a)] }
  | .withdrawUnbonded => ∃ a, o = .signed a ∧ n = { td := [.withdrawn a (tdLock s a - tdLock s' a)] }
  | .registerSgxEnclave proof url m => ∃ a e, o = .signed a ∧ Registered s' a e ∧ e.method = m ∧ e.url = url ∧
      Attested c s a proof e ∧ n = { tx := [.addedSgxEnclave a url (some e.status) m] }
  | .unregisterSovereignEnclave a => n = { tx := [.removedSovereignEnclave a] }
  | .unregisterProxiedEnclave a => n = { tx := [.removedProxiedEnclave a] }
  | .registerQuotingEnclave i g ch => SignedIdentity c s.now i g ch s'.tx.qe ∧
      n = { tx := [.sgxQuotingEnclaveRegistered s'.tx.qe] }
  | .registerTcbInfo i g ch => ∃ f t, SignedTcbInfo c s.now i g ch f t ∧ s'.tx.tcb f = some t ∧
      n = { tx := [.sgxTcbInfoRegistered f t] }
  | .setSecurityFlags skip debug => n = { tx := [.updatedSecurityFlags skip debug] }
  | .invoke shard _ => n = { br := [.indirectInvocationRegistered shard] }
  | .confirmProcessedParentchainBlock shard hash number root =>
      n = { br := [.processedParentchainBlock shard hash root number] }
  | .shieldFunds shard beneficiary amount => n = { br := [.shieldFunds shard beneficiary amount] }
  | .unshieldFunds shard beneficiary amount h =>
      (s.br.executed h = none ∧ n = { br := [.unshieldedFunds shard beneficiary amount] }) ∨
      (s.br.executed h ≠ none ∧ n = {})
  | .publishHash hash topics data => ∃ a e, o = .signed a ∧ s.tx.sovereign a = some e ∧
      n = { br := [.publishedHash (topics ++ [e.mrEnclave]) e.mrEnclave hash data] }
  | .updateShardConfig shard _ _ => n = { br := [.shardConfigUpdated shard] }
  | .purgeEnclave shard subject => n = { br := [.purgedEnclave shard subject] }
  | .confirmImportedSidechainBlock shard _ block => ∃ a, o = .signed a ∧
      (((statusOf s' shard).head?.map (·.signer) = some a ∧
          n = { sc := [.finalized shard block.number block.hash a] }) ∨
       ((statusOf s' shard).head?.map (·.signer) ≠ some a ∧ n = {}))
  | .addToWhitelist src fp => n = { orc := [.addedToWhitelist src fp] }
  | .removeFromWhitelist src fp => n = { orc := [.removedFromWhitelist src fp] }
  | .updateOracle name src _ => n = { orc := [.oracleUpdated name src] }
  | .updateExchangeRate src pair rate =>
      (∃ r, rate = some r ∧ r ≠ 0 ∧ n = { orc := [.exchangeRateUpdated src pair r] }) ∨
      ((rate = none ∨ rate = some 0) ∧ n = { orc := [.exchangeRateDeleted src pair] })
  | .claims (.claim dest sig) => ∃ addr amount, SignedBy c addr sig dest [] ∧ Collected s s' addr amount ∧
      n = { cl := [.claimed dest addr amount] }
  | .claims (.claimAttest dest sig st) => ∃ addr amount, SignedBy c addr sig dest st ∧ Collected s s' addr amount ∧
      n = { cl := [.claimed dest addr amount] }
  | .claims (.attest _) => ∃ a addr amount, o = .signed a ∧ s.cl.preclaims a = some addr ∧
      Collected s s' addr amount ∧ n = { cl := [.claimed a addr amount] }
  | .claims (.mintClaim ..) => n = {}
  | .claims (.moveClaim ..) => n = {}
  | .registerReserveAsset id loc => n = { ar := [.registered id loc] }
  | .unregisterReserveAsset id => ∃ loc, s.ar.idLoc id = some loc ∧ n = { ar := [.unregistered id loc] }
  | .sendSwapUmp self other w fee => ∃ hash,
        c.sendXcm s.xt.sent ⟨1, []⟩ (swapProgram c.ownParaId self other w fee) = .ok hash ∧
      n = { xt := [.swapTransactSent self other, .sentXcm hash] }
  | .balTransfer .. => n = {}

end Verif
