import Verif.Model.Teerdays
import Verif.Model.Sidechain
import Verif.Model.Teeracle
import Verif.Model.Claims
import Verif.Model.XcmTransactor
import Verif.Model.XcmPrimitives
import Verif.Model.Migrations

/-!
# The runtime: dispatch of all calls, blocks, the outside world, histories

The dispatch table corresponds to the `#[pallet::call]` blocks of the pallets (cited at each constructor); a
history is any list of operations.
-/

namespace Verif

/-- All calls of the modelled pallets, and the plain currency transfer of pallet_balances (external). -/
inductive Call where
  /-- teerdays/src/lib.rs L174 -/
  | bond (value : Nat)
  /-- teerdays/src/lib.rs L199 -/
  | bondExtra (value : Nat)
  /-- teerdays/src/lib.rs L229 -/
  | unbond (value : Nat)
  /-- teerdays/src/lib.rs L276 -/
  | updateOther (who : AccountId)
  /-- teerdays/src/lib.rs L285 -/
  | withdrawUnbonded
  /-- teerex/src/lib.rs L295 -/
  | registerSgxEnclave (proof : Bytes) (url : Option Bytes) (method : SgxAttestationMethod)
  /-- teerex/src/lib.rs L450 -/
  | unregisterSovereignEnclave (a : AccountId)
  /-- teerex/src/lib.rs L474 -/
  | unregisterProxiedEnclave (a : EnclaveInstanceAddress)
  /-- teerex/src/lib.rs L498 -/
  | registerQuotingEnclave (identity signature chain : Bytes)
  /-- teerex/src/lib.rs L520 -/
  | registerTcbInfo (info signature chain : Bytes)
  /-- teerex/src/lib.rs L540 -/
  | setSecurityFlags (allowSkip allowDebug : Bool)
  /-- enclave-bridge/src/lib.rs L162 -/
  | invoke (shard : ShardId) (cyphertext : Bytes)
  /-- enclave-bridge/src/lib.rs L172 -/
  | confirmProcessedParentchainBlock (shard : ShardId) (blockHash : H256) (blockNumber : Nat) (root : H256)
  /-- enclave-bridge/src/lib.rs L206 -/
  | shieldFunds (shard : ShardId) (incognito : Bytes) (amount : Nat)
  /-- enclave-bridge/src/lib.rs L232 -/
  | unshieldFunds (shard : ShardId) (beneficiary : AccountId) (amount : Nat) (callHash : H256)
  /-- enclave-bridge/src/lib.rs L282 -/
  | publishHash (hash : H256) (extraTopics : List H256) (data : Bytes)
  /-- enclave-bridge/src/lib.rs L317 -/
  | updateShardConfig (shard : ShardId) (cfg : ShardConfig) (delay : Nat)
  /-- enclave-bridge/src/lib.rs L379 -/
  | purgeEnclave (shard : ShardId) (subject : AccountId)
  /-- sidechain/src/lib.rs L93 -/
  | confirmImportedSidechainBlock (shard : ShardId) (ancestor : Option Confirmation) (candidate : Confirmation)
  /-- teeracle/src/lib.rs L150 -/
  | addToWhitelist (source : Bytes) (fp : Fingerprint)
  /-- teeracle/src/lib.rs L170 -/
  | removeFromWhitelist (source : Bytes) (fp : Fingerprint)
  /-- teeracle/src/lib.rs L189 -/
  | updateOracle (name source blob : Bytes)
  /-- teeracle/src/lib.rs L220 -/
  | updateExchangeRate (source pair : Bytes) (new : Option Nat)
  /-- claims/src/lib.rs L187-379 -/
  | claims (k : ClaimsCall)
  /-- asset-registry/src/lib.rs L99 -/
  | registerReserveAsset (id : AssetId) (loc : Location)
  /-- asset-registry/src/lib.rs L129 -/
  | unregisterReserveAsset (id : AssetId)
  /-- xcm-transactor/src/lib.rs L127 -/
  | sendSwapUmp (self other : Nat) (weight : Nat × Nat) (fee : Nat)
  /-- external: pallet_balances `transfer_allow_death` -/
  | balTransfer (dst : AccountId) (amount : Nat)
  deriving DecidableEq

/-- external: pallet_balances `transfer_allow_death`, the signer sends their own money. -/
def balTransfer (c : Cfg) (s : Chain) (o : Origin) (dst : AccountId) (amount : Nat) : Except Err Chain := do
  let src ← ensureSigned o
  EnclaveBridge.doTransfer c s src dst amount

/-- Dispatch of a call: the `#[pallet::call]` blocks from teerdays/src/lib.rs L168, teerex/src/lib.rs L285,
enclave-bridge/src/lib.rs L153, sidechain/src/lib.rs L88, teeracle/src/lib.rs L146, claims/src/lib.rs L187,
asset-registry/src/lib.rs L94 and xcm-transactor/src/lib.rs L108 on; the lines of each call are at `Call`. -/
def dispatch (c : Cfg) (s : Chain) (o : Origin) : Call → Except Err Chain
  | .bond v => Teerdays.bond c s o v
  | .bondExtra v => Teerdays.bondExtra c s o v
  | .unbond v => Teerdays.unbond c s o v
  | .updateOther who => Teerdays.updateOther c s o who
  | .withdrawUnbonded => Teerdays.withdrawUnbonded s o
  | .registerSgxEnclave proof url method => Teerex.registerSgxEnclave c s o proof url method
  | .unregisterSovereignEnclave a => Teerex.unregisterSovereignEnclave c s o a
  | .unregisterProxiedEnclave a => Teerex.unregisterProxiedEnclave c s o a
  | .registerQuotingEnclave i g ch => Teerex.registerQuotingEnclave c s o i g ch
  | .registerTcbInfo i g ch => Teerex.registerTcbInfo c s o i g ch
  | .setSecurityFlags a d => Teerex.setSecurityFlags s o a d
  | .invoke shard cy => EnclaveBridge.invoke s o shard cy
  | .confirmProcessedParentchainBlock shard bh bn root =>
    EnclaveBridge.confirmProcessedParentchainBlock s o shard bh bn root
  | .shieldFunds shard inc amount => EnclaveBridge.shieldFunds c s o shard inc amount
  | .unshieldFunds shard ben amount h => EnclaveBridge.unshieldFunds c s o shard ben amount h
  | .publishHash h topics data => EnclaveBridge.publishHash s o h topics data
  | .updateShardConfig shard cfg delay => EnclaveBridge.updateShardConfig c s o shard cfg delay
  | .purgeEnclave shard subject => EnclaveBridge.purgeEnclave s o shard subject
  | .confirmImportedSidechainBlock shard anc cand => Sidechain.confirmImportedSidechainBlock s o shard anc cand
  | .addToWhitelist source fp => Teeracle.addToWhitelist c s o source fp
  | .removeFromWhitelist source fp => Teeracle.removeFromWhitelist s o source fp
  | .updateOracle name source blob => Teeracle.updateOracle c s o name source blob
  | .updateExchangeRate source pair new => Teeracle.updateExchangeRate s o source pair new
  | .claims k => Claims.dispatch c s o k
  | .registerReserveAsset id loc => AssetRegistry.registerReserveAsset c s o id loc
  | .unregisterReserveAsset id => AssetRegistry.unregisterReserveAsset c s o id
  | .sendSwapUmp self other w fee => XcmTransactor.sendSwapUmp c s o self other w fee
  | .balTransfer dst amount => balTransfer c s o dst amount

/-- Operations (external: frame_executive and the other pallets of a runtime): an extrinsic, the begin of a new block,
or an action of the outside world. -/
inductive Op where
  /-- an extrinsic with an arbitrary origin -/
  | ext (o : Origin) (k : Call)
  /-- a new block whose timestamp is `dt` later (pallet_timestamp, external: never decreases) -/
  | newBlock (dt : Nat)
  /-- another pallet mints `amount` for an account (external) -/
  | mint (a : AccountId) (amount : Nat)
  /-- another pallet slashes an account, locks do not protect against it (external) -/
  | slash (a : AccountId) (amount : Nat)
  /-- another pallet sets a lock under another id (external) -/
  | setOtherLock (a : AccountId) (amount : Nat)
  /-- pallet_vesting `vest`: the vesting lock of an account is brought up to date (external) -/
  | vest (a : AccountId)
  /-- pallet_vesting: somebody adds a vesting schedule to an account (external) -/
  | addVesting (a : AccountId) (v : VestingInfo)
  /-- pallet_assets: an asset is created, or its minimum balance is changed (external) -/
  | setAsset (id : AssetId) (minBalance : Nat)
  /-- pallet_assets: an asset is destroyed (external) -/
  | destroyAsset (id : AssetId)
  deriving DecidableEq

/-- One operation. An error of an extrinsic is reported; the actions of the outside world (external) never
fail. -/
def exec (c : Cfg) (s : Chain) : Op → Except Err Chain
  | .ext o k => dispatch c s o k
  | .newBlock dt => .ok { s with block := s.block + 1, now := s.now + dt }
  | .mint a amount => .ok { s with bal := s.bal.depositCreating c.ed c.balMax a amount }
  | .slash a amount =>
    .ok { s with bal := { s.bal with
      free := upd s.bal.free a (s.bal.free a - amount)
      issuance := s.bal.issuance - min amount (s.bal.free a) } }
  | .setOtherLock a amount =>
    .ok { s with bal := { s.bal with lock := upd s.bal.lock .other (upd (s.bal.lock .other) a amount) } }
  | .vest a => .ok { s with bal := s.bal.updateVesting s.block a (s.bal.schedules a) }
  | .addVesting a v =>
    match s.bal.addVesting c.maxSchedules s.block a v with
    | .ok b => .ok { s with bal := b }
    | .error e => .error (.bal e)
  | .setAsset id m => .ok { s with assets := upd s.assets id (some m) }
  | .destroyAsset id => .ok { s with assets := upd s.assets id none }

/-- FRAME storage layer (external, `frame_support::storage::with_storage_layer`): a failing extrinsic leaves the state
(including events) unchanged. -/
def step (c : Cfg) (s : Chain) (op : Op) : Chain :=
  match exec c s op with
  | .ok s' => s'
  | .error _ => s

/-- A history: operations one after the other (external: the blocks of a chain). -/
def run (c : Cfg) (s : Chain) (ops : List Op) : Chain := ops.foldl (step c) s

/-- Specification side, no code modelled: the operations of a history that succeeded, each with the state it started
from, oldest first. -/
def accepted (c : Cfg) (s : Chain) : List Op → List (Chain × Op)
  | [] => []
  | op :: ops =>
    match exec c s op with
    | .ok s' => (s, op) :: accepted c s' ops
    | .error _ => accepted c s ops

/-- Empty storage at time and block zero: the genesis state of the modelled pallets without claims, with the two
teerex flags of `GenesisConfig` (teerex/src/lib.rs L277-283). Balances are given. -/
def genesis (bal : Balances) (allowDebug allowSkip : Bool) (cl : ClaimsSt) : Chain :=
  { now := 0, block := 0, bal := bal
    td := { bonds := fun _ => none, pending := fun _ => none, events := [] }
    tx := { sovereign := fun _ => none, proxied := fun _ => none, qe := SgxQuotingEnclave.default,
            tcb := fun _ => none, allowDebug := allowDebug, allowSkip := allowSkip, events := [] }
    br := { status := fun _ => none, config := fun _ => none, executed := fun _ => none, events := [] }
    sc := { latest := fun _ => none, events := [] }
    orc := { rates := fun _ _ => none, blobs := fun _ _ => none, whitelist := fun _ => [], events := [] }
    cl := cl
    ar := { idLoc := fun _ => none, locId := fun _ => none, events := [] }
    xt := { sent := [], events := [] }
    assets := fun _ => none }

end Verif
