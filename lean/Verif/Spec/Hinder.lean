import Verif.Spec.Accept
import Verif.Spec.Locality

/-!
# Specification: what can make a call fail that would have succeeded

For each call a list of the operations that can come in between and make it fail. Everything that is not listed leaves
the call acceptable.
-/

namespace Verif

/-- The free balance of the account may fall. -/
def Op.spends (x : AccountId) : Op → Prop
  | .ext o (.shieldFunds ..) | .ext o (.balTransfer ..) => o = .signed x
  | .ext _ (.unshieldFunds shard ..) => shard = x
  | .slash a _ => a = x
  | _ => False

/-- More of the balance of the account may be locked. -/
def Op.locks (x : AccountId) : Op → Prop
  | .ext o (.bond _) | .ext o (.bondExtra _) | .ext o (.claims (.attest _)) => o = .signed x
  | .ext _ (.claims (.claim dest _)) | .ext _ (.claims (.claimAttest dest _ _)) => dest = x
  | .setOtherLock a _ | .vest a | .addVesting a _ => a = x
  | _ => False

/-- The account may receive money. -/
def Op.gives (x : AccountId) : Op → Prop
  | .ext _ (.shieldFunds shard ..) => shard = x
  | .ext _ (.unshieldFunds _ ben ..) => ben = x
  | .ext _ (.balTransfer dst _) => dst = x
  | .ext _ (.claims (.claim dest _)) | .ext _ (.claims (.claimAttest dest _ _)) => dest = x
  | .ext o (.claims (.attest _)) => o = .signed x
  | .mint a _ => a = x
  | _ => False

/-- A payment can be prevented by what happens to the money of the sender, and by what happens to the balance of the
receiver (which must reach the existential deposit and must not overflow). -/
def HindersPayment (op : Op) (src dst : AccountId) : Prop :=
  op.spends src ∨ op.locks src ∨ op.spends dst ∨ op.gives dst

/-- The registry entry of an enclave is renewed or removed. -/
def Op.changesEnclave (x : AccountId) : Op → Prop
  | .ext o (.registerSgxEnclave ..) => o = .signed x
  | .ext _ (.unregisterSovereignEnclave a) => a = x
  | _ => False

/-- Somebody else, who was not listed yet, makes a call for the shard and gets the last place in its status. -/
def TakesLastPlace (c : Cfg) (s : Chain) (op : Op) (shard : ShardId) (a : AccountId) : Prop :=
  ∃ b k, op = .ext (.signed b) k ∧ b ≠ a ∧ .shard shard ∈ k.changes c s (.signed b) ∧
    (statusOf s shard).length = 9 ∧ a ∉ (statusOf s shard).map (·.signer) ∧ b ∉ (statusOf s shard).map (·.signer)

/-- The shard gets another configuration: by a call, or because an upgrade is due in the next block. -/
def Reconfigures (s : Chain) (op : Op) (shard : ShardId) : Prop :=
  (∃ o cfg delay, op = .ext o (.updateShardConfig shard cfg delay)) ∨
  ∃ dt, op = .newBlock dt ∧ fingerprintInEffect s shard (s.block + 1) ≠ fingerprintInEffect s shard s.block

/-- What can prevent the enclave of an account from making a call for a shard. -/
def HindersEnclave (c : Cfg) (s : Chain) (op : Op) (shard : ShardId) (a : AccountId) : Prop :=
  op.changesEnclave a ∨ Reconfigures s op shard ∨ TakesLastPlace c s op shard a

/-- The operation pays the claim of an Ethereum address to an account, if it is accepted. -/
def Settles (c : Cfg) (s : Chain) (op : Op) (g : EthAddr) (dest : AccountId) : Prop :=
  (∃ o sig, op = .ext o (.claims (.claim dest sig)) ∧ SignedBy c g sig dest []) ∨
  (∃ o sig st, op = .ext o (.claims (.claimAttest dest sig st)) ∧ SignedBy c g sig dest st) ∨
  (∃ st, op = .ext (.signed dest) (.claims (.attest st)) ∧ s.cl.preclaims dest = some g)

/-- What can prevent the claim of an address from being paid to an account: it is paid, overwritten or moved; the total
gets too low for it; or the claim vests and the account gets another vesting schedule. -/
def HindersClaim (c : Cfg) (s : Chain) (op : Op) (g : EthAddr) (dest : AccountId) : Prop :=
  (∃ g' d', Settles c s op g' d' ∧ (g' = g ∨
    (∃ due due', s.cl.claims g = some due ∧ s.cl.claims g' = some due' ∧ s.cl.total < due + due') ∨
    (d' = dest ∧ s.cl.vesting g ≠ none ∧ s.cl.vesting g' ≠ none))) ∨
  (∃ o who v vest st, op = .ext o (.claims (.mintClaim who v vest st)) ∧ (who = g ∨ c.balMax < s.cl.total + v)) ∨
  (∃ o old new p, op = .ext o (.claims (.moveClaim old new p)) ∧ (old = g ∨ new = g)) ∨
  (∃ v, op = .addVesting dest v ∧ s.cl.vesting g ≠ none)

/-- The operation can make the call fail that would have succeeded. -/
def Hinders (c : Cfg) (s : Chain) (op : Op) (o : Origin) : Call → Prop
  -- teerdays: only the account itself (and the clock, if sums overflow)
  | .bond _ => ∃ a v, o = .signed a ∧ op = .ext (.signed a) (.bond v)
  | .bondExtra _ => ∃ a v, o = .signed a ∧ op = .ext (.signed a) (.unbond v)
  | .unbond _ => (∃ a v, o = .signed a ∧ op = .ext (.signed a) (.unbond v)) ∨
      ∃ dt, op = .newBlock dt ∧ c.momentMax < s.now + dt + c.unlockPeriod
  | .updateOther who => ∃ v, op = .ext (.signed who) (.unbond v)
  | .withdrawUnbonded => ∃ a, o = .signed a ∧ op = .ext (.signed a) .withdrawUnbonded
  -- teerex: collateral, flags and time; for deregistration a renewal or another deregistration
  | .registerSgxEnclave _ _ m => (∃ skip debug, op = .ext .root (.setSecurityFlags skip debug)) ∨
      (∃ dt, op = .newBlock dt ∧ ∀ p, m ≠ .skip p) ∨
      ∃ p, m = .dcap p ∧ ∃ b i g ch, op = .ext (.signed b) (.registerQuotingEnclave i g ch) ∨
        op = .ext (.signed b) (.registerTcbInfo i g ch)
  | .unregisterSovereignEnclave a => op.changesEnclave a
  | .unregisterProxiedEnclave p => (∃ proof url m, op = .ext (.signed p.registrar) (.registerSgxEnclave proof url m)) ∨
      ∃ b, op = .ext (.signed b) (.unregisterProxiedEnclave p)
  | .registerQuotingEnclave .. | .registerTcbInfo .. => ∃ dt, op = .newBlock dt
  | .setSecurityFlags .. | .invoke .. | .purgeEnclave .. | .claims (.moveClaim ..) => False
  -- enclave-bridge and sidechain
  | .confirmProcessedParentchainBlock shard .. => ∃ a, o = .signed a ∧ HindersEnclave c s op shard a
  | .shieldFunds shard _ _ => ∃ a, o = .signed a ∧ HindersPayment op a shard
  | .unshieldFunds shard ben _ h => ∃ a, o = .signed a ∧ (HindersEnclave c s op shard a ∨
      match s.br.executed h with
      | none => HindersPayment op shard ben
      | some n => 2 ^ 64 - 2 ≤ n ∧ ∃ b i d v, op = .ext (.signed b) (.unshieldFunds i d v h))
  | .publishHash .. => ∃ a, o = .signed a ∧ (op.changesEnclave a ∨
      ∃ e, s.tx.sovereign a = some e ∧ TakesLastPlace c s op e.mrEnclave a)
  | .updateShardConfig shard _ _ => ∃ a, o = .signed a ∧ HindersEnclave c s op shard a
  | .confirmImportedSidechainBlock shard _ _ => ∃ a, o = .signed a ∧ (HindersEnclave c s op shard a ∨
      (∃ b anc cand, op = .ext (.signed b) (.confirmImportedSidechainBlock shard anc cand)) ∨
      ∃ b, op = .ext .root (.purgeEnclave shard b))
  -- teeracle
  | .addToWhitelist src _ => ∃ fp, op = .ext .root (.addToWhitelist src fp)
  | .removeFromWhitelist src fp => op = .ext .root (.removeFromWhitelist src fp)
  | .updateOracle _ src _ | .updateExchangeRate src _ _ => ∃ a, o = .signed a ∧ (op.changesEnclave a ∨
      ∃ e, s.tx.sovereign a = some e ∧ op = .ext .root (.removeFromWhitelist src e.mrEnclave))
  -- claims
  | .claims (.mintClaim _ v _ _) => ∃ who v' vest st, op = .ext .root (.claims (.mintClaim who v' vest st)) ∧
      c.balMax < s.cl.total + v' + v
  | .claims k => ∃ g dest, Settles c s (.ext o (.claims k)) g dest ∧ HindersClaim c s op g dest
  -- asset-registry and xcm-transactor
  | .registerReserveAsset id _ => (∃ o' loc, op = .ext o' (.registerReserveAsset id loc)) ∨ op = .destroyAsset id
  | .unregisterReserveAsset id => ∃ o', op = .ext o' (.unregisterReserveAsset id)
  | .sendSwapUmp .. => ∃ o' self other w fee, op = .ext o' (.sendSwapUmp self other w fee)
  -- pallet balances
  | .balTransfer dst _ => ∃ a, o = .signed a ∧ HindersPayment op a dst

end Verif
