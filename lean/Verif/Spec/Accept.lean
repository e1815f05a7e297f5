import Verif.Spec.Teerex
import Verif.Spec.Bridge
import Verif.Spec.Sidechain
import Verif.Spec.Claims
import Verif.Spec.Xcm
import Verif.Spec.Events

/-!
# Specification: which calls succeed

One line per call, in terms of the storage that users can read, without reference to the functions of the pallets.
-/

namespace Verif

/-- A sum is computed without a panic: it fits, or overflow checks are off. -/
def SumOk (c : Cfg) (max sum : Nat) : Prop := sum ≤ max ∨ c.overflowChecks = false

/-- The currency lets `src` send `amount` to `dst`: it has the money beyond all its locks (and keeps the existential
deposit if there is one), the amount fits, and the receiver reaches the existential deposit. -/
def CanPay (c : Cfg) (s : Chain) (src dst : AccountId) (amount : Nat) : Prop :=
  amount = 0 ∨ src = dst ∨
  (amount ≤ s.bal.free src ∧
   (∀ id, s.bal.lock id src ≠ 0 → s.bal.lock id src + amount ≤ s.bal.free src ∧ c.ed + amount ≤ s.bal.free src) ∧
   s.bal.free dst + amount ≤ c.balMax ∧ c.ed ≤ s.bal.free dst + amount)

/-- The account is listed in the status of the shard, or there is room for it. -/
def HasPlace (s : Chain) (shard : ShardId) (a : AccountId) : Prop :=
  a ∈ (statusOf s shard).map (·.signer) ∨ (statusOf s shard).length < 10

/-- The account may make calls for the shard. -/
def MayAct (s : Chain) (o : Origin) (shard : ShardId) (a : AccountId) : Prop :=
  o = .signed a ∧ RightEnclave s shard a ∧ HasPlace s shard a

/-- The claim of an address can be paid to an account: there is one, it is covered by the total, and if it vests then
the account has no vesting schedule yet and the schedule is acceptable to pallet vesting. -/
def Payable (c : Cfg) (s : Chain) (g : EthAddr) (dest : AccountId) : Prop :=
  (∃ due, s.cl.claims g = some due ∧ due ≤ s.cl.total) ∧
  ∀ v, s.cl.vesting g = some v → s.bal.schedules dest = [] ∧
    (v.locked = 0 ∨ (v.perBlock ≠ 0 ∧ c.maxSchedules ≠ 0))

/-- The statement is the one required for the claim of an address, if one is required. -/
def StatementOk (s : Chain) (g : EthAddr) (st : Bytes) : Prop := ∀ k, s.cl.signing g = some k → k.statement = st

/-- The call succeeds, as the documentation of the calls has it. -/
def Accepts (c : Cfg) (s : Chain) (o : Origin) : Call → Prop
  -- teerdays
  | .bond v => ∃ a, o = .signed a ∧ s.td.bonds a = none ∧ c.ed ≤ v
  | .bondExtra v => ∃ a, o = .signed a ∧ s.td.bonds a ≠ none ∧ s.td.pending a = none ∧ c.ed ≤ v
  | .unbond v => ∃ a, o = .signed a ∧ s.td.bonds a ≠ none ∧ s.td.pending a = none ∧ c.ed ≤ v ∧
      SumOk c c.momentMax (s.now + c.unlockPeriod)
  | .updateOther who => ∃ a, o = .signed a ∧ s.td.bonds who ≠ none
  | .withdrawUnbonded => ∃ a due amount, o = .signed a ∧ s.td.pending a = some (due, amount) ∧ due ≤ s.now
  -- teerex
  | .registerSgxEnclave proof url m => ∃ a e, o = .signed a ∧ proof.length ≤ 5000 ∧
      (∀ u, url = some u → u.length ≤ 256) ∧ e.method = m ∧ e.url = url ∧ Attested c s a proof e ∧
      (s.tx.allowDebug = true ∨ e.buildMode ≠ .debug) ∧ (e.method.isProxied = true ∨ e.reportData.val.take 32 = a.val)
  | .unregisterSovereignEnclave a => ∃ b e, o = .signed b ∧ s.tx.sovereign a = some e ∧
      e.timestamp + c.maxRenewal < s.now
  | .unregisterProxiedEnclave p => ∃ b e, o = .signed b ∧ s.tx.proxied p = some e ∧
      e.timestamp + c.maxRenewal < s.now
  | .registerQuotingEnclave i g ch => ∃ a q, o = .signed a ∧ s.now < 2 ^ 63 ∧ SignedIdentity c s.now i g ch q
  | .registerTcbInfo i g ch => ∃ a f t, o = .signed a ∧ s.now < 2 ^ 63 ∧ SignedTcbInfo c s.now i g ch f t
  | .setSecurityFlags _ _ => o = .root
  -- enclave-bridge
  | .invoke _ _ => ∃ a, o = .signed a
  | .confirmProcessedParentchainBlock shard _ _ _ => ∃ a, MayAct s o shard a
  | .shieldFunds shard _ amount => ∃ a, o = .signed a ∧ CanPay c s a shard amount
  | .unshieldFunds shard ben amount h => ∃ a, MayAct s o shard a ∧
      match s.br.executed h with
      | none => CanPay c s shard ben amount
      | some n => SumOk c (2 ^ 64 - 1) (n + 1)
  | .publishHash _ topics data => ∃ a e, o = .signed a ∧ s.tx.sovereign a = some e ∧ HasPlace s e.mrEnclave a ∧
      topics.length ≤ 5 ∧ data.length ≤ 100
  | .updateShardConfig shard _ _ => o = .root ∨ ∃ a e, o = .signed a ∧ s.tx.sovereign a = some e ∧ HasPlace s shard a ∧
      ∀ old, configInEffect s shard s.block = some old → e.mrEnclave = old.fingerprint
  | .purgeEnclave shard _ => o = .root ∧ s.br.status shard ≠ none
  -- sidechain
  | .confirmImportedSidechainBlock shard anc cand => ∃ a, MayAct s o shard a ∧
      (Primary s shard a → Follows s shard anc cand)
  -- teeracle
  | .addToWhitelist src fp => o = .root ∧ src.length ≤ 40 ∧ fp ∉ s.orc.whitelist src ∧
      (s.orc.whitelist src).length < c.maxWhitelisted
  | .removeFromWhitelist src fp => o = .root ∧ fp ∈ s.orc.whitelist src
  | .updateOracle name src blob => ∃ a e, o = .signed a ∧ s.tx.sovereign a = some e ∧ e.mrEnclave ∈ s.orc.whitelist src ∧
      name.length ≤ 40 ∧ src.length ≤ 40 ∧ blob.length ≤ c.maxBlob
  | .updateExchangeRate src pair _ => ∃ a e, o = .signed a ∧ s.tx.sovereign a = some e ∧
      e.mrEnclave ∈ s.orc.whitelist src ∧ pair.length ≤ 11
  -- claims
  | .claims (.claim dest sig) => o = .none ∧ ∃ g, SignedBy c g sig dest [] ∧ s.cl.signing g = none ∧ Payable c s g dest
  | .claims (.claimAttest dest sig st) => o = .none ∧ ∃ g, SignedBy c g sig dest st ∧ StatementOk s g st ∧
      Payable c s g dest
  | .claims (.attest st) => ∃ a g, o = .signed a ∧ s.cl.preclaims a = some g ∧ StatementOk s g st ∧ Payable c s g a
  | .claims (.mintClaim _ v _ _) => o = .root ∧ SumOk c c.balMax (s.cl.total + v)
  | .claims (.moveClaim _ _ _) => c.moveClaimOrigin o = true ∨ o = .root
  -- asset-registry
  | .registerReserveAsset id loc => c.assetOrigin o = true ∧ s.assets id ≠ none ∧ s.ar.idLoc id = none ∧
      IdentifiesAsset loc
  | .unregisterReserveAsset id => c.assetOrigin o = true ∧ s.ar.idLoc id ≠ none
  -- xcm-transactor
  | .sendSwapUmp self other w fee => c.swapOrigin o = true ∧ self ≠ other ∧
      (self = c.shellParaId ∨ self = c.ksmParaId) ∧ (other = c.shellParaId ∨ other = c.ksmParaId) ∧
      ∃ hash, c.sendXcm s.xt.sent ⟨1, []⟩ (swapProgram c.ownParaId self other w fee) = .ok hash
  -- pallet balances
  | .balTransfer dst amount => ∃ a, o = .signed a ∧ CanPay c s a dst amount

end Verif
