import Verif.Model.Scale

/-!
# Specification of the encodings

Byte layouts written out field by field, in the notation of the SCALE documentation, and the ranges of the numbers.
The layouts say where a reader of the raw storage, or of a transaction, finds which value.
-/

namespace Verif

/-! ### Building blocks -/

namespace Layout

/-- A number in `n` bytes, lowest byte first. -/
def number (n v : Nat) : Bytes := (List.range n).map fun i => UInt8.ofNat (v / 256 ^ i)

/-- A truth value in one byte. -/
def flag (b : Bool) : Bytes := if b then [1] else [0]

/-- A number in its shortest compact form: one, two or four bytes with the mode in the two low bits, or the number
of bytes minus four and the bytes. -/
def short (v : Nat) : Bytes :=
  if v < 64 then number 1 (4 * v)
  else if v < 16384 then number 2 (4 * v + 1)
  else if v < 1073741824 then number 4 (4 * v + 2)
  else number 1 (4 * (Nat.log2 v / 8 - 3) + 3) ++ number (Nat.log2 v / 8 + 1) v

/-- Something that may be missing. -/
def option {α : Type} (f : α → Bytes) : Option α → Bytes
  | none => [0]
  | some x => 1 :: f x

/-- A list with its length in front. -/
def list {α : Type} (f : α → Bytes) (l : List α) : Bytes := short l.length ++ (l.map f).flatten

/-- Bytes with their length in front. -/
def text (b : Bytes) : Bytes := short b.length ++ b

/-! ### Stored values -/

/-- A bond: value, time of the last update, token time. -/
def bond (w : Scale.Widths) (b : Bond) : Bytes :=
  number w.bal b.value ++ number w.moment b.lastUpdated ++ number w.bal b.tokentime

/-- A pending withdrawal: time and amount. -/
def pending (w : Scale.Widths) (p : Nat × Nat) : Bytes := number w.moment p.1 ++ number w.bal p.2

/-- How an enclave attested. -/
def method : SgxAttestationMethod → Bytes
  | .skip p => 0 :: flag p
  | .ias => [1]
  | .dcap p => 2 :: flag p

/-- The position of a status in the list of statuses. -/
def status : SgxStatus → Bytes
  | .invalid => [0]
  | .ok => [1]
  | .groupOutOfDate => [2]
  | .groupRevoked => [3]
  | .configurationNeeded => [4]

/-- The position of a status in Intel's list. -/
def tcbStatus : TcbStatus → Bytes
  | .unknown => [0]
  | .upToDate => [1]
  | .swHardeningNeeded => [2]
  | .configurationAndSWHardeningNeeded => [3]
  | .outOfDate => [4]
  | .outOfDateConfigurationNeeded => [5]
  | .revoked => [6]

/-- Debug or production. -/
def buildMode : SgxBuildMode → Bytes
  | .debug => [0]
  | .production => [1]

/-- A registered enclave. The first byte says that it is an SGX enclave. -/
def enclave (e : SgxEnclave) : Bytes :=
  [0] ++ e.reportData.val ++ e.mrEnclave.val ++ e.mrSigner.val ++ number 8 e.timestamp ++ option text e.url ++
    buildMode e.buildMode ++ method e.method ++ status e.status

/-- The signer of a proxied enclave. -/
def signer : AnySigner → Bytes
  | .opaque b => 0 :: text b
  | .known (.ed25519 k) => 1 :: 0 :: k.val
  | .known (.sr25519 k) => 1 :: 1 :: k.val
  | .known (.ecdsa k) => 1 :: 2 :: k.val

/-- The address of a proxied enclave. -/
def address (a : EnclaveInstanceAddress) : Bytes := a.fingerprint.val ++ a.registrar.val ++ signer a.signer

/-- The registered quoting enclave. -/
def quotingEnclave (q : SgxQuotingEnclave) : Bytes :=
  number 8 q.issueDate ++ number 8 q.nextUpdate ++ q.miscselect.val ++ q.miscselectMask.val ++ q.attributes.val ++
    q.attributesMask.val ++ q.mrsigner.val ++ number 2 q.isvprodid ++ list (number 2) q.tcb

/-- Registered platform levels. -/
def tcbInfo (t : SgxTcbInfoOnChain) : Bytes :=
  number 8 t.issueDate ++ number 8 t.nextUpdate ++
    list (fun v => v.cpusvn.val ++ number 2 v.pcesvn ++ tcbStatus v.tcbStatus) t.tcbLevels

/-- The status of a shard: account, measurement and last activity of each signer. -/
def shardStatus (w : Scale.Widths) : List SignerStatus → Bytes :=
  list fun t => t.signer.val ++ t.fingerprint.val ++ number w.block t.lastActivity

/-- A shard configuration. -/
def shardConfig (c : ShardConfig) : Bytes :=
  c.fingerprint.val ++ option (number 4) c.maxInstances ++
    option (list fun a : AccountId => a.val) c.authorities ++ flag c.maintenance

/-- The configuration of a shard and its upgrade. -/
def upgradable (w : Scale.Widths) (c : UpgradableShardConfig) : Bytes :=
  shardConfig c.active ++ option shardConfig c.pending ++ option (number w.block) c.upgradeAt

/-- A confirmed sidechain block. -/
def confirmation (c : Confirmation) : Bytes := number 8 c.number ++ c.hash.val

/-- A vesting schedule: amount, amount per block, first block. -/
def vesting (w : Scale.Widths) (v : VestingInfo) : Bytes :=
  number w.bal v.locked ++ number w.bal v.perBlock ++ number w.block v.start

/-- The kind of a statement. -/
def statement : StatementKind → Bytes
  | .regular => [0]
  | .saft => [1]

/-! ### Calls -/

/-- A call: its number in the pallet and its arguments. -/
def call (w : Scale.Widths) (loc : Location → Bytes) : Call → Bytes
  | .bond v => 0 :: short v
  | .bondExtra v => 1 :: short v
  | .unbond v => 2 :: short v
  | .updateOther a => 3 :: a.val
  | .withdrawUnbonded => [4]
  | .registerSgxEnclave p u m => 0 :: (text p ++ option text u ++ method m)
  | .unregisterSovereignEnclave a => 1 :: a.val
  | .unregisterProxiedEnclave a => 2 :: address a
  | .registerQuotingEnclave i g c => 3 :: (text i ++ text g ++ text c)
  | .registerTcbInfo i g c => 4 :: (text i ++ text g ++ text c)
  | .setSecurityFlags s d => 5 :: (flag s ++ flag d)
  | .invoke s c => 0 :: (s.val ++ text c)
  | .confirmProcessedParentchainBlock s h n r => 1 :: (s.val ++ h.val ++ number w.block n ++ r.val)
  | .shieldFunds s i a => 2 :: (s.val ++ text i ++ number w.bal a)
  | .unshieldFunds s b a h => 3 :: (s.val ++ b.val ++ number w.bal a ++ h.val)
  | .publishHash h t d => 4 :: (h.val ++ list (fun x : H256 => x.val) t ++ text d)
  | .updateShardConfig s c d => 5 :: (s.val ++ shardConfig c ++ number w.block d)
  | .purgeEnclave s a => 6 :: (s.val ++ a.val)
  | .confirmImportedSidechainBlock s a c => 0 :: (s.val ++ option confirmation a ++ confirmation c)
  | .addToWhitelist s f => 0 :: (text s ++ f.val)
  | .removeFromWhitelist s f => 1 :: (text s ++ f.val)
  | .updateOracle n s b => 2 :: (text n ++ text s ++ text b)
  | .updateExchangeRate s p v => 3 :: (text s ++ text p ++ option (number 8) v)
  | .claims (.claim d g) => 0 :: (d.val ++ g.val)
  | .claims (.mintClaim a v s k) =>
    1 :: (a.val ++ number w.bal v ++ option (vesting w) s ++ option statement k)
  | .claims (.claimAttest d g t) => 2 :: (d.val ++ g.val ++ text t)
  | .claims (.attest t) => 3 :: text t
  | .claims (.moveClaim o n p) => 4 :: (o.val ++ n.val ++ option (fun a : AccountId => a.val) p)
  | .registerReserveAsset i l => 0 :: (number w.asset i ++ loc l)
  | .unregisterReserveAsset i => 1 :: number w.asset i
  | .sendSwapUmp a b x f => 0 :: (number 4 a ++ number 4 b ++ short x.1 ++ short x.2 ++ number 16 f)
  | .balTransfer _ _ => []

end Layout

/-! ### Ranges -/

namespace Fits

/-- `v` is a number of `n` bytes. -/
def number (n v : Nat) : Prop := v < 2 ^ (8 * n)

instance (n v : Nat) : Decidable (number n v) := inferInstanceAs (Decidable (v < _))

/-- Vectors have at most `2 ^ 32 - 1` elements. -/
def vector {α : Type} (l : List α) : Prop := l.length < 2 ^ 32

instance {α : Type} (l : List α) : Decidable (vector l) := inferInstanceAs (Decidable (l.length < _))

/-- The numbers of a bond are in range. -/
def bond (w : Scale.Widths) (b : Bond) : Prop :=
  number w.bal b.value ∧ number w.moment b.lastUpdated ∧ number w.bal b.tokentime

/-- The numbers of a pending withdrawal are in range. -/
def pending (w : Scale.Widths) (p : Nat × Nat) : Prop := number w.moment p.1 ∧ number w.bal p.2

/-- The timestamp of an enclave is in range, its url is not too long. -/
def enclave (e : SgxEnclave) : Prop := number 8 e.timestamp ∧ ∀ u, e.url = some u → vector u

/-- An opaque signer has at most 66 bytes. -/
def address (a : EnclaveInstanceAddress) : Prop := ∀ b, a.signer = .opaque b → b.length ≤ 66

/-- The numbers of a quoting enclave are in range. -/
def quotingEnclave (q : SgxQuotingEnclave) : Prop :=
  number 8 q.issueDate ∧ number 8 q.nextUpdate ∧ number 2 q.isvprodid ∧ vector q.tcb ∧ ∀ v ∈ q.tcb, number 2 v

/-- The numbers of platform levels are in range. -/
def tcbInfo (t : SgxTcbInfoOnChain) : Prop :=
  number 8 t.issueDate ∧ number 8 t.nextUpdate ∧ vector t.tcbLevels ∧ ∀ v ∈ t.tcbLevels, number 2 v.pcesvn

/-- The status of a shard has at most ten entries, with block numbers in range. -/
def shardStatus (w : Scale.Widths) (l : List SignerStatus) : Prop :=
  l.length ≤ 10 ∧ ∀ t ∈ l, number w.block t.lastActivity

/-- The numbers of a shard configuration are in range. -/
def shardConfig (c : ShardConfig) : Prop :=
  (∀ m, c.maxInstances = some m → number 4 m) ∧ ∀ l, c.authorities = some l → vector l

/-- The numbers of a shard configuration with its upgrade are in range. -/
def upgradable (w : Scale.Widths) (c : UpgradableShardConfig) : Prop :=
  shardConfig c.active ∧ (∀ p, c.pending = some p → shardConfig p) ∧ ∀ n, c.upgradeAt = some n → number w.block n

/-- The number of a sidechain block is in range. -/
def confirmation (c : Confirmation) : Prop := number 8 c.number

/-- The numbers of a vesting schedule are in range. -/
def vesting (w : Scale.Widths) (v : VestingInfo) : Prop :=
  number w.bal v.locked ∧ number w.bal v.perBlock ∧ number w.block v.start

/-- The arguments of a call are in range. -/
def call (w : Scale.Widths) (maxBlob : Nat) (loc : Location → Prop) : Call → Prop
  | .bond v | .bondExtra v | .unbond v => number w.bal v
  | .registerSgxEnclave p u _ => vector p ∧ ∀ x, u = some x → vector x
  | .unregisterProxiedEnclave a => address a
  | .registerQuotingEnclave i g c | .registerTcbInfo i g c => vector i ∧ vector g ∧ vector c
  | .invoke _ c => vector c
  | .confirmProcessedParentchainBlock _ _ n _ => number w.block n
  | .shieldFunds _ i a => vector i ∧ number w.bal a
  | .unshieldFunds _ _ a _ => number w.bal a
  | .publishHash _ t d => vector t ∧ vector d
  | .updateShardConfig _ c d => shardConfig c ∧ number w.block d
  | .confirmImportedSidechainBlock _ a c => (∀ x, a = some x → confirmation x) ∧ confirmation c
  | .addToWhitelist s _ | .removeFromWhitelist s _ => vector s
  | .updateOracle n s b => vector n ∧ vector s ∧ vector b ∧ b.length ≤ maxBlob
  | .updateExchangeRate s p v => vector s ∧ vector p ∧ ∀ x, v = some x → number 8 x
  | .claims (.mintClaim _ v s _) => number w.bal v ∧ ∀ x, s = some x → vesting w x
  | .claims (.claimAttest _ _ t) | .claims (.attest t) => vector t
  | .registerReserveAsset i l => number w.asset i ∧ loc l
  | .unregisterReserveAsset i => number w.asset i
  | .sendSwapUmp a b x f => number 4 a ∧ number 4 b ∧ number 8 x.1 ∧ number 8 x.2 ∧ number 16 f
  | _ => True

/-- The keys of a storage entry are in range. -/
def slot (w : Scale.Widths) (loc : Location → Prop) : Scale.Slot → Prop
  | .proxiedEnclaves a => address a
  | .exchangeRate p s | .oracleData p s => vector p ∧ vector s
  | .whitelist s => vector s
  | .assetIdLocation i => number w.asset i
  | .assetLocationId l => loc l
  | _ => True

/-- The types of the runtime have the given widths: their maxima fit. Times are at most eight bytes wide (they are
converted to `u64`), and the bound on whitelists is a `u32`. -/
structure Config (w : Scale.Widths) (c : Cfg) : Prop where
  bal : number w.bal c.balMax
  moment : number w.moment c.momentMax
  momentU64 : w.moment ≤ 8
  block : number w.block c.blockMax
  whitelist : number 4 c.maxWhitelisted
  blob : number 4 c.maxBlob

/-- What the external parsers return fits its Rust type: dates are `i64`, vectors have less than `2 ^ 32` elements. -/
structure Parsers (x : Ext) : Prop where
  dates : ∀ t d, x.parseDate t = some d → d < 2 ^ 63
  identity : ∀ data i, x.parseIdentity data = some i → vector i.tcbLevels
  tcbInfo : ∀ data i, x.parseTcbInfo data = some i → vector i.tcbLevels

/-- Everything in storage, keys and values, is in range. -/
structure storage (w : Scale.Widths) (maxBlob : Nat) (loc : Location → Prop) (s : Chain) : Prop where
  bonds : ∀ a b, s.td.bonds a = some b → bond w b
  pending : ∀ a p, s.td.pending a = some p → pending w p
  sovereign : ∀ a e, s.tx.sovereign a = some e → enclave e
  proxied : ∀ a e, s.tx.proxied a = some e → address a ∧ enclave e
  quotingEnclave : quotingEnclave s.tx.qe
  tcbInfo : ∀ f t, s.tx.tcb f = some t → tcbInfo t
  status : ∀ i l, s.br.status i = some l → shardStatus w l
  config : ∀ i u, s.br.config i = some u → upgradable w u
  executed : ∀ h n, s.br.executed h = some n → number 8 n
  latest : ∀ i b, s.sc.latest i = some b → confirmation b
  rates : ∀ p o r, s.orc.rates p o = some r → vector p ∧ vector o ∧ number 8 r
  blobs : ∀ n o b, s.orc.blobs n o = some b → vector n ∧ vector o ∧ vector b ∧ b.length ≤ maxBlob
  whitelist : ∀ o, s.orc.whitelist o ≠ [] → vector o ∧ vector (s.orc.whitelist o)
  claims : ∀ a v, s.cl.claims a = some v → number w.bal v
  total : number w.bal s.cl.total
  vesting : ∀ a v, s.cl.vesting a = some v → vesting w v
  idLoc : ∀ i l, s.ar.idLoc i = some l → number w.asset i ∧ loc l
  locId : ∀ l i, s.ar.locId l = some i → number w.asset i ∧ loc l

/-- The arguments of an operation are in range. -/
def op (w : Scale.Widths) (maxBlob : Nat) (loc : Location → Prop) : Op → Prop
  | .ext _ k => call w maxBlob loc k
  | _ => True

end Fits

/-- The encoding of a type is as written down: `layout` is what is stored or sent, and reading a value from the
front of some bytes succeeds exactly when they begin with the layout of a value in range; then it yields that
value and leaves the rest. -/
def Faithful {α : Type} (c : Codec α) (layout : α → Bytes) (fits : α → Prop) : Prop :=
  (∀ v, fits v → c.enc v = layout v) ∧
    ∀ (bytes rest : Bytes) (v : α), c.dec bytes = some (v, rest) ↔ fits v ∧ bytes = layout v ++ rest

/-- The pallets with calls. -/
inductive CallPallet where
  | teerdays | teerex | enclaveBridge | sidechain | teeracle | claims | assetRegistry | xcmTransactor
  deriving DecidableEq

/-- Which pallet a call belongs to. -/
def Call.palletOf : Call → Option CallPallet
  | .bond _ | .bondExtra _ | .unbond _ | .updateOther _ | .withdrawUnbonded => some .teerdays
  | .registerSgxEnclave _ _ _ | .unregisterSovereignEnclave _ | .unregisterProxiedEnclave _
  | .registerQuotingEnclave _ _ _ | .registerTcbInfo _ _ _ | .setSecurityFlags _ _ => some .teerex
  | .invoke _ _ | .confirmProcessedParentchainBlock _ _ _ _ | .shieldFunds _ _ _ | .unshieldFunds _ _ _ _
  | .publishHash _ _ _ | .updateShardConfig _ _ _ | .purgeEnclave _ _ => some .enclaveBridge
  | .confirmImportedSidechainBlock _ _ _ => some .sidechain
  | .addToWhitelist _ _ | .removeFromWhitelist _ _ | .updateOracle _ _ _ | .updateExchangeRate _ _ _ =>
    some .teeracle
  | .claims _ => some .claims
  | .registerReserveAsset _ _ | .unregisterReserveAsset _ => some .assetRegistry
  | .sendSwapUmp _ _ _ _ => some .xcmTransactor
  | .balTransfer _ _ => none

/-- The hash of the names (external) is different for different pallets of the runtime, and for different storage
items. These are finitely many fixed names. -/
def NamesApart (h : Scale.KeyHash) (names : Scale.Pallet → Bytes) : Prop :=
  (∀ p q, h.twox128 (names p) = h.twox128 (names q) → p = q) ∧
    ∀ s t : Scale.Slot, h.twox128 (asciiBytes s.item) = h.twox128 (asciiBytes t.item) → s.item = t.item

end Verif
