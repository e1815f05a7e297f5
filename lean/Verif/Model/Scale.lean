import Verif.Model.Runtime

/-!
# The SCALE encoding of what is stored and of what is submitted

The `Encode`/`Decode` implementations (parity-scale-codec, external; derived for the types of /repo) of the
stored values, of the storage keys and of the calls. A derived implementation of a struct is the sequence of its
fields in the order of the source; that of an enum is the position of the variant, followed by its fields.

A codec has three parts: `enc` writes, `dec` reads from the front and returns what is left, `fits` says which
elements of the Lean type are values of the Rust type (a Lean number may be too large for a `u32`).
-/

namespace Verif

/-- `Encode` and `Decode` of a type (parity-scale-codec, external). `dec` returns `none` on an error, otherwise
the value and the unread rest of the input. -/
structure Codec (α : Type) where
  enc : α → Bytes
  dec : Bytes → Option (α × Bytes)
  fits : α → Prop

namespace Scale

/-- `[u8; n]` (external); also `H256`, `AccountId32`, and the tuple structs around an array of
primitives/claims/src/lib.rs L91-92, L125-126. -/
def arr (n : Nat) : Codec (Arr n) where
  enc a := a.val
  dec := rdArr n
  fits _ := True

/-- An unsigned integer of `n` bytes (external). -/
def le (n : Nat) : Codec Nat where
  enc v := toLE n v
  dec := rdLE n
  fits v := v < 256 ^ n

/-- `bool` (external): one byte, 0 or 1, everything else is an error. -/
def bool : Codec Bool where
  enc b := [if b then 1 else 0]
  dec
    | 0 :: r => some (false, r)
    | 1 :: r => some (true, r)
    | _ => none
  fits _ := True

/-- `Encode for Compact<uN>` (external): two low bits of the first byte are the mode. -/
def compactEnc (v : Nat) : Bytes :=
  if v < 2 ^ 6 then [UInt8.ofNat (v * 4)]
  else if v < 2 ^ 14 then toLE 2 (v * 4 + 1)
  else if v < 2 ^ 30 then toLE 4 (v * 4 + 2)
  else
    let n := Nat.log2 v / 8 + 1
    UInt8.ofNat ((n - 4) * 4 + 3) :: toLE n v

/-- `Decode for Compact<uN>` (external) for an integer of `w ≥ 4` bytes: a value that could have been written
shorter is an error, as is one that does not fit. -/
def compactDec (w : Nat) : Bytes → Option (Nat × Bytes)
  | [] => none
  | p :: b =>
    match p.toNat % 4 with
    | 0 => some (p.toNat / 4, b)
    | 1 => do
      let (x, r) ← rdLE 2 (p :: b)
      if 2 ^ 6 ≤ x / 4 then some (x / 4, r) else none
    | 2 => do
      let (x, r) ← rdLE 4 (p :: b)
      if 2 ^ 14 ≤ x / 4 then some (x / 4, r) else none
    | _ =>
      let n := p.toNat / 4 + 4
      if n ≤ w then do
        let (x, r) ← rdLE n b
        if (if n = 4 then 2 ^ 30 else 256 ^ (n - 1)) ≤ x then some (x, r) else none
      else none

/-- `Compact<uN>` (external) of an integer of `w` bytes, used for `#[pallet::compact]` (teerdays/src/lib.rs L176,
L201, L231) and for the length of a vector. -/
def compact (w : Nat) : Codec Nat where
  enc := compactEnc
  dec := compactDec w
  fits v := v < 256 ^ w

/-- `(A, B)` (external); nested pairs are the fields of a struct. -/
def pair {α β : Type} (a : Codec α) (b : Codec β) : Codec (α × β) where
  enc p := a.enc p.1 ++ b.enc p.2
  dec i := do
    let (x, i) ← a.dec i
    let (y, i) ← b.dec i
    some ((x, y), i)
  fits p := a.fits p.1 ∧ b.fits p.2

/-- `Option<A>` (external): 0, or 1 and the value. -/
def opt {α : Type} (a : Codec α) : Codec (Option α) where
  enc
    | none => [0]
    | some x => 1 :: a.enc x
  dec
    | 0 :: r => some (none, r)
    | 1 :: r => (a.dec r).map fun p => (some p.1, p.2)
    | _ => none
  fits o := ∀ x ∈ o, a.fits x

/-- The loop of `Decode for Vec<T>` (external): `n` elements. -/
def decN {α : Type} (a : Codec α) : Nat → Bytes → Option (List α × Bytes)
  | 0, i => some ([], i)
  | n + 1, i => do
    let (x, i) ← a.dec i
    let (xs, i) ← decN a n i
    some (x :: xs, i)

/-- `Vec<T>` (external): the number of elements as a compact `u32`, then the elements. -/
def vec {α : Type} (a : Codec α) : Codec (List α) where
  enc l := compactEnc l.length ++ l.flatMap a.enc
  dec i := do
    let (n, i) ← compactDec 4 i
    decN a n i
  fits l := l.length < 256 ^ 4 ∧ ∀ x ∈ l, a.fits x

/-- One byte (external). -/
def byte : Codec UInt8 where
  enc b := [b]
  dec
    | b :: r => some (b, r)
    | [] => none
  fits _ := True

/-- `Vec<u8>` (external). -/
def bytes : Codec Bytes := vec byte

/-- `BoundedVec<T, n>` (external): like a vector, but a longer one is an error when it is read. -/
def bounded {α : Type} (a : Codec α) (n : Nat) : Codec (List α) where
  enc := (vec a).enc
  dec i := do
    let (l, i) ← (vec a).dec i
    if l.length ≤ n then some (l, i) else none
  fits l := (vec a).fits l ∧ l.length ≤ n

/-- A struct given by its fields (external: `#[derive(Encode, Decode)]`): `f` builds it, `g` takes it apart. -/
def iso {α β : Type} (a : Codec α) (f : α → β) (g : β → α) : Codec β where
  enc y := a.enc (g y)
  dec i := (a.dec i).map fun p => (f p.1, p.2)
  fits y := a.fits (g y)

/-- No fields at all (external: parity-scale-codec). -/
def unit : Codec Unit where
  enc _ := []
  dec i := some ((), i)
  fits _ := True

/-- One variant of an enum (external: `#[derive(Encode, Decode)]`): its index, the codec of its fields, how it is
built and recognised. -/
structure Variant (α : Type) where
  tag : UInt8
  Fields : Type
  codec : Codec Fields
  make : Fields → α
  un : α → Option Fields

/-- `encode` of one variant (external, see `Variant`): its index and its fields. -/
def Variant.enc? {α : Type} (v : Variant α) (a : α) : Option Bytes := (v.un a).map fun x => v.tag :: v.codec.enc x

/-- The values of one variant that are values of the Rust type (external, see `Variant`). -/
def Variant.fits {α : Type} (v : Variant α) (a : α) : Prop := ∃ x, v.un a = some x ∧ v.codec.fits x

/-- A derived implementation of an enum (external: parity-scale-codec). -/
def enum {α : Type} (vs : List (Variant α)) : Codec α where
  enc a := (vs.findSome? fun v => v.enc? a).getD []
  dec
    | [] => none
    | t :: i =>
      match vs.find? fun v => v.tag == t with
      | none => none
      | some v => (v.codec.dec i).map fun p => (v.make p.1, p.2)
  fits a := ∃ v ∈ vs, v.fits a

/-! ### primitives/common -/

/-- `MultiSigner` (external, sp_runtime). -/
def multiSigner : Codec MultiSigner :=
  enum [⟨0, _, arr 32, .ed25519, fun | .ed25519 k => some k | _ => none⟩,
    ⟨1, _, arr 32, .sr25519, fun | .sr25519 k => some k | _ => none⟩,
    ⟨2, _, arr 33, .ecdsa, fun | .ecdsa k => some k | _ => none⟩]

/-- `AnySigner`, primitives/common/src/lib.rs L58-62, with `OpaqueSigner` (L38). -/
def anySigner : Codec AnySigner :=
  enum [⟨0, _, bounded byte 66, .opaque, fun | .opaque b => some b | _ => none⟩,
    ⟨1, _, multiSigner, .known, fun | .known s => some s | _ => none⟩]

/-! ### primitives/teerex -/

/-- `SgxBuildMode`, primitives/teerex/src/lib.rs L31-36. -/
def buildMode : Codec SgxBuildMode :=
  enum [⟨0, _, unit, fun _ => .debug, fun | .debug => some () | _ => none⟩,
    ⟨1, _, unit, fun _ => .production, fun | .production => some () | _ => none⟩]

/-- `SgxAttestationMethod`, primitives/teerex/src/lib.rs L38-43. -/
def attestationMethod : Codec SgxAttestationMethod :=
  enum [⟨0, _, bool, .skip, fun | .skip p => some p | _ => none⟩,
    ⟨1, _, unit, fun _ => .ias, fun | .ias => some () | _ => none⟩,
    ⟨2, _, bool, .dcap, fun | .dcap p => some p | _ => none⟩]

/-- `SgxStatus`, primitives/teerex/src/lib.rs L86-94. -/
def sgxStatus : Codec SgxStatus :=
  enum [⟨0, _, unit, fun _ => .invalid, fun | .invalid => some () | _ => none⟩,
    ⟨1, _, unit, fun _ => .ok, fun | .ok => some () | _ => none⟩,
    ⟨2, _, unit, fun _ => .groupOutOfDate, fun | .groupOutOfDate => some () | _ => none⟩,
    ⟨3, _, unit, fun _ => .groupRevoked, fun | .groupRevoked => some () | _ => none⟩,
    ⟨4, _, unit, fun _ => .configurationNeeded, fun | .configurationNeeded => some () | _ => none⟩]

/-- `TcbStatus`, primitives/teerex/src/lib.rs L110-132. -/
def tcbStatus : Codec TcbStatus :=
  enum [⟨0, _, unit, fun _ => .unknown, fun | .unknown => some () | _ => none⟩,
    ⟨1, _, unit, fun _ => .upToDate, fun | .upToDate => some () | _ => none⟩,
    ⟨2, _, unit, fun _ => .swHardeningNeeded, fun | .swHardeningNeeded => some () | _ => none⟩,
    ⟨3, _, unit, fun _ => .configurationAndSWHardeningNeeded,
      fun | .configurationAndSWHardeningNeeded => some () | _ => none⟩,
    ⟨4, _, unit, fun _ => .outOfDate, fun | .outOfDate => some () | _ => none⟩,
    ⟨5, _, unit, fun _ => .outOfDateConfigurationNeeded,
      fun | .outOfDateConfigurationNeeded => some () | _ => none⟩,
    ⟨6, _, unit, fun _ => .revoked, fun | .revoked => some () | _ => none⟩]

/-- `SgxEnclave<Vec<u8>>`, primitives/teerex/src/lib.rs L190-200. -/
def sgxEnclave : Codec SgxEnclave :=
  iso (pair (arr 64) (pair (arr 32) (pair (arr 32) (pair (le 8) (pair (opt bytes)
      (pair buildMode (pair attestationMethod sgxStatus)))))))
    (fun (rd, me, ms, ts, url, bm, am, st) => ⟨rd, me, ms, ts, url, bm, am, st⟩)
    (fun e => (e.reportData, e.mrEnclave, e.mrSigner, e.timestamp, e.url, e.buildMode, e.method, e.status))

/-- `MultiEnclave<Vec<u8>>`, primitives/teerex/src/lib.rs L134-137: the only variant has index 0. -/
def multiEnclave : Codec SgxEnclave :=
  enum [⟨0, _, sgxEnclave, id, some⟩]

/-- `SgxQuotingEnclave`, primitives/teerex/src/lib.rs L270-284, with `QeTcb` (L257-260). -/
def quotingEnclave : Codec SgxQuotingEnclave :=
  iso (pair (le 8) (pair (le 8) (pair (arr 4) (pair (arr 4) (pair (arr 16) (pair (arr 16)
      (pair (arr 32) (pair (le 2) (vec (le 2))))))))))
    (fun (i, n, m, mm, a, am, ms, p, t) => ⟨i, n, m, mm, a, am, ms, p, t⟩)
    (fun q => (q.issueDate, q.nextUpdate, q.miscselect, q.miscselectMask, q.attributes, q.attributesMask,
      q.mrsigner, q.isvprodid, q.tcb))

/-- `TcbVersionStatus`, primitives/teerex/src/lib.rs L323-328. -/
def tcbVersionStatus : Codec TcbVersionStatus :=
  iso (pair (arr 16) (pair (le 2) tcbStatus)) (fun (c, p, t) => ⟨c, p, t⟩)
    (fun v => (v.cpusvn, v.pcesvn, v.tcbStatus))

/-- `SgxTcbInfoOnChain`, primitives/teerex/src/lib.rs L357-364. -/
def tcbInfoOnChain : Codec SgxTcbInfoOnChain :=
  iso (pair (le 8) (pair (le 8) (vec tcbVersionStatus))) (fun (i, n, l) => ⟨i, n, l⟩)
    (fun t => (t.issueDate, t.nextUpdate, t.tcbLevels))

/-- `EnclaveInstanceAddress`, primitives/teerex/src/lib.rs L393-398. -/
def instanceAddress : Codec EnclaveInstanceAddress :=
  iso (pair (arr 32) (pair (arr 32) anySigner)) (fun (f, r, s) => ⟨f, r, s⟩)
    (fun a => (a.fingerprint, a.registrar, a.signer))

/-! ### The number types of the runtime -/

/-- The widths in bytes of the number types a runtime chooses: `Balance`, `BlockNumber`, `Moment` and the asset
id (`Config` of frame_system, pallet_balances, pallet_timestamp, pallet_assets, external). -/
structure Widths where
  bal : Nat
  block : Nat
  moment : Nat
  asset : Nat

variable (w : Widths)

/-- `TeerDayBond`, primitives/teerdays/src/lib.rs L6-12. -/
def teerDayBond : Codec Bond :=
  iso (pair (le w.bal) (pair (le w.moment) (le w.bal))) (fun (v, l, t) => ⟨v, l, t⟩)
    (fun b => (b.value, b.lastUpdated, b.tokentime))

/-- `(T::Moment, BalanceOf<T>)`, the value of `PendingUnlock`, teerdays/src/lib.rs L166. -/
def pendingUnlock : Codec (Nat × Nat) := pair (le w.moment) (le w.bal)

/-- `ShardSignerStatus`, primitives/enclave-bridge/src/lib.rs L33-38. -/
def signerStatus : Codec SignerStatus :=
  iso (pair (arr 32) (pair (arr 32) (le w.block))) (fun (s, f, l) => ⟨s, f, l⟩)
    (fun t => (t.signer, t.fingerprint, t.lastActivity))

/-- `ShardSignerStatusVec`, enclave-bridge/src/lib.rs L43-44, with the bound of
primitives/enclave-bridge/src/lib.rs L39. -/
def signerStatusVec : Codec (List SignerStatus) := bounded (signerStatus w) 10

/-- `ShardConfig`, primitives/enclave-bridge/src/lib.rs L41-51. -/
def shardConfig : Codec ShardConfig :=
  iso (pair (arr 32) (pair (opt (le 4)) (pair (opt (vec (arr 32))) bool))) (fun (f, m, a, b) => ⟨f, m, a, b⟩)
    (fun c => (c.fingerprint, c.maxInstances, c.authorities, c.maintenance))

/-- `UpgradableShardConfig`, primitives/enclave-bridge/src/lib.rs L64-72. -/
def upgradableShardConfig : Codec UpgradableShardConfig :=
  iso (pair shardConfig (pair (opt shardConfig) (opt (le w.block)))) (fun (a, p, u) => ⟨a, p, u⟩)
    (fun c => (c.active, c.pending, c.upgradeAt))

/-- `SidechainBlockConfirmation`, primitives/sidechain/src/lib.rs L28-33. -/
def confirmation : Codec Confirmation :=
  iso (pair (le 8) (arr 32)) (fun (n, h) => ⟨n, h⟩) (fun c => (c.number, c.hash))

/-- `StatementKind`, primitives/claims/src/lib.rs L51-70. -/
def statementKind : Codec StatementKind :=
  enum [⟨0, _, unit, fun _ => .regular, fun | .regular => some () | _ => none⟩,
    ⟨1, _, unit, fun _ => .saft, fun | .saft => some () | _ => none⟩]

/-- `(BalanceOf<T>, BalanceOf<T>, BlockNumberFor<T>)`, the value of `Vesting`, claims/src/lib.rs L132. -/
def vestingInfo : Codec VestingInfo :=
  iso (pair (le w.bal) (pair (le w.bal) (le w.block))) (fun (l, p, s) => ⟨l, p, s⟩)
    (fun v => (v.locked, v.perBlock, v.start))

/-! ### Calls -/

/-- The calls of teerdays: the `call_index` of teerdays/src/lib.rs L172-285 and the arguments. -/
def teerdaysCall : Codec Call :=
  enum [⟨0, _, compact w.bal, .bond, fun | .bond v => some v | _ => none⟩,
    ⟨1, _, compact w.bal, .bondExtra, fun | .bondExtra v => some v | _ => none⟩,
    ⟨2, _, compact w.bal, .unbond, fun | .unbond v => some v | _ => none⟩,
    ⟨3, _, arr 32, .updateOther, fun | .updateOther a => some a | _ => none⟩,
    ⟨4, _, unit, fun _ => .withdrawUnbonded, fun | .withdrawUnbonded => some () | _ => none⟩]

/-- The calls of teerex: the `call_index` of teerex/src/lib.rs L293-544 and the arguments. -/
def teerexCall : Codec Call :=
  enum [⟨0, _, pair bytes (pair (opt bytes) attestationMethod), fun (p, u, m) => .registerSgxEnclave p u m,
      fun | .registerSgxEnclave p u m => some (p, u, m) | _ => none⟩,
    ⟨1, _, arr 32, .unregisterSovereignEnclave, fun | .unregisterSovereignEnclave a => some a | _ => none⟩,
    ⟨2, _, instanceAddress, .unregisterProxiedEnclave, fun | .unregisterProxiedEnclave a => some a | _ => none⟩,
    ⟨3, _, pair bytes (pair bytes bytes), fun (i, g, c) => .registerQuotingEnclave i g c,
      fun | .registerQuotingEnclave i g c => some (i, g, c) | _ => none⟩,
    ⟨4, _, pair bytes (pair bytes bytes), fun (i, g, c) => .registerTcbInfo i g c,
      fun | .registerTcbInfo i g c => some (i, g, c) | _ => none⟩,
    ⟨5, _, pair bool bool, fun (s, d) => .setSecurityFlags s d,
      fun | .setSecurityFlags s d => some (s, d) | _ => none⟩]

/-- The calls of enclave-bridge: the `call_index` of enclave-bridge/src/lib.rs L160-383 and the arguments;
`Request` is primitives/enclave-bridge/src/lib.rs L27-31. -/
def bridgeCall : Codec Call :=
  enum [⟨0, _, pair (arr 32) bytes, fun (s, c) => .invoke s c, fun | .invoke s c => some (s, c) | _ => none⟩,
    ⟨1, _, pair (arr 32) (pair (arr 32) (pair (le w.block) (arr 32))),
      fun (s, h, n, r) => .confirmProcessedParentchainBlock s h n r,
      fun | .confirmProcessedParentchainBlock s h n r => some (s, h, n, r) | _ => none⟩,
    ⟨2, _, pair (arr 32) (pair bytes (le w.bal)), fun (s, i, a) => .shieldFunds s i a,
      fun | .shieldFunds s i a => some (s, i, a) | _ => none⟩,
    ⟨3, _, pair (arr 32) (pair (arr 32) (pair (le w.bal) (arr 32))), fun (s, b, a, h) => .unshieldFunds s b a h,
      fun | .unshieldFunds s b a h => some (s, b, a, h) | _ => none⟩,
    ⟨4, _, pair (arr 32) (pair (vec (arr 32)) bytes), fun (h, t, d) => .publishHash h t d,
      fun | .publishHash h t d => some (h, t, d) | _ => none⟩,
    ⟨5, _, pair (arr 32) (pair shardConfig (le w.block)), fun (s, c, d) => .updateShardConfig s c d,
      fun | .updateShardConfig s c d => some (s, c, d) | _ => none⟩,
    ⟨6, _, pair (arr 32) (arr 32), fun (s, a) => .purgeEnclave s a,
      fun | .purgeEnclave s a => some (s, a) | _ => none⟩]

/-- The call of sidechain: the `call_index` of sidechain/src/lib.rs L91-98 and the arguments. -/
def sidechainCall : Codec Call :=
  enum [⟨0, _, pair (arr 32) (pair (opt confirmation) confirmation),
      fun (s, a, c) => .confirmImportedSidechainBlock s a c,
      fun | .confirmImportedSidechainBlock s a c => some (s, a, c) | _ => none⟩]

/-- The calls of teeracle: the `call_index` of teeracle/src/lib.rs L148-225 and the arguments; `PalletString` is
`Vec<u8>` in the runtime (primitives/common/src/lib.rs L33), the blob is bounded (teeracle/src/lib.rs L51), an
exchange rate has 64 bits. -/
def teeracleCall (maxBlob : Nat) : Codec Call :=
  enum [⟨0, _, pair bytes (arr 32), fun (s, f) => .addToWhitelist s f,
      fun | .addToWhitelist s f => some (s, f) | _ => none⟩,
    ⟨1, _, pair bytes (arr 32), fun (s, f) => .removeFromWhitelist s f,
      fun | .removeFromWhitelist s f => some (s, f) | _ => none⟩,
    ⟨2, _, pair bytes (pair bytes (bounded byte maxBlob)), fun (n, s, b) => .updateOracle n s b,
      fun | .updateOracle n s b => some (n, s, b) | _ => none⟩,
    ⟨3, _, pair bytes (pair bytes (opt (le 8))), fun (s, p, v) => .updateExchangeRate s p v,
      fun | .updateExchangeRate s p v => some (s, p, v) | _ => none⟩]

/-- The calls of claims: the `call_index` of claims/src/lib.rs L213-355 and the arguments. -/
def claimsCall : Codec Call :=
  enum [⟨0, _, pair (arr 32) (arr 65), fun (d, g) => .claims (.claim d g),
      fun | .claims (.claim d g) => some (d, g) | _ => none⟩,
    ⟨1, _, pair (arr 20) (pair (le w.bal) (pair (opt (vestingInfo w)) (opt statementKind))),
      fun (a, v, s, k) => .claims (.mintClaim a v s k),
      fun | .claims (.mintClaim a v s k) => some (a, v, s, k) | _ => none⟩,
    ⟨2, _, pair (arr 32) (pair (arr 65) bytes), fun (d, g, t) => .claims (.claimAttest d g t),
      fun | .claims (.claimAttest d g t) => some (d, g, t) | _ => none⟩,
    ⟨3, _, bytes, fun t => .claims (.attest t), fun | .claims (.attest t) => some t | _ => none⟩,
    ⟨4, _, pair (arr 20) (pair (arr 20) (opt (arr 32))), fun (o, n, p) => .claims (.moveClaim o n p),
      fun | .claims (.moveClaim o n p) => some (o, n, p) | _ => none⟩]

/-- The calls of asset-registry: the `call_index` of asset-registry/src/lib.rs L97-134 and the arguments. The
encoding of a location (external) is a parameter. -/
def assetRegistryCall (loc : Codec Location) : Codec Call :=
  enum [⟨0, _, pair (le w.asset) loc, fun (i, l) => .registerReserveAsset i l,
      fun | .registerReserveAsset i l => some (i, l) | _ => none⟩,
    ⟨1, _, le w.asset, .unregisterReserveAsset, fun | .unregisterReserveAsset i => some i | _ => none⟩]

/-- The call of xcm-transactor: the `call_index` of xcm-transactor/src/lib.rs L125-133 and the arguments. A
`ParaId` is a `u32`, both parts of a `Weight` are written compactly (external). -/
def xcmTransactorCall : Codec Call :=
  enum [⟨0, _, pair (le 4) (pair (le 4) (pair (pair (compact 8) (compact 8)) (le 16))),
      fun (a, b, x, f) => .sendSwapUmp a b x f, fun | .sendSwapUmp a b x f => some (a, b, x, f) | _ => none⟩]

/-! ### Storage keys -/

/-- The 16 byte hash functions of storage keys (external): `twox_128` for the names, `blake2_128` for the keys. -/
structure KeyHash where
  twox128 : Bytes → Arr 16
  blake128 : Bytes → Arr 16

/-- `Blake2_128Concat` (external), the hasher of all maps of /repo except those of claims: the hash of the
encoded key followed by the encoded key. -/
def blakeConcat {α : Type} (h : KeyHash) (a : Codec α) (k : α) : Bytes := (h.blake128 (a.enc k)).val ++ a.enc k

/-- The first 32 bytes of the storage keys of a storage item (external): hash of the name of the pallet in the
runtime, hash of the name of the item. -/
def itemPrefix (h : KeyHash) (pallet item : Bytes) : Bytes := (h.twox128 pallet).val ++ (h.twox128 item).val

/-- The storage items of the pallets and their entries: teerdays/src/lib.rs L156-166, teerex/src/lib.rs L224-266,
enclave-bridge/src/lib.rs L129-151, sidechain/src/lib.rs L83-86, teeracle/src/lib.rs L71-104, claims/src/lib.rs
L117-140, asset-registry/src/lib.rs L69-73. -/
inductive Slot where
  /-- teerdays/src/lib.rs L156-159 -/
  | teerDayBonds (a : AccountId)
  /-- teerdays/src/lib.rs L163-166 -/
  | pendingUnlock (a : AccountId)
  /-- teerex/src/lib.rs L224-227 -/
  | sovereignEnclaves (a : AccountId)
  /-- teerex/src/lib.rs L229-237 -/
  | proxiedEnclaves (a : EnclaveInstanceAddress)
  /-- teerex/src/lib.rs L239-241 -/
  | quotingEnclave
  /-- teerex/src/lib.rs L243-246 -/
  | tcbInfo (f : Fmspc)
  /-- teerex/src/lib.rs L253-256 -/
  | allowDebug
  /-- teerex/src/lib.rs L263-266 -/
  | allowSkip
  /-- enclave-bridge/src/lib.rs L129-132 -/
  | shardStatus (s : ShardId)
  /-- enclave-bridge/src/lib.rs L138-146 -/
  | shardConfig (s : ShardId)
  /-- enclave-bridge/src/lib.rs L148-151 -/
  | executedUnshieldCalls (h : H256)
  /-- sidechain/src/lib.rs L83-86 -/
  | latestConfirmation (s : ShardId)
  /-- teeracle/src/lib.rs L71-81 -/
  | exchangeRate (pair source : Bytes)
  /-- teeracle/src/lib.rs L83-93 -/
  | oracleData (name source : Bytes)
  /-- teeracle/src/lib.rs L95-104 -/
  | whitelist (source : Bytes)
  /-- claims/src/lib.rs L117-119 -/
  | claim (a : EthAddr)
  /-- claims/src/lib.rs L121-123 -/
  | claimsTotal
  /-- claims/src/lib.rs L125-132 -/
  | vesting (a : EthAddr)
  /-- claims/src/lib.rs L134-136 -/
  | signing (a : EthAddr)
  /-- claims/src/lib.rs L138-140 -/
  | preclaim (a : AccountId)
  /-- asset-registry/src/lib.rs L69-70 -/
  | assetIdLocation (i : AssetId)
  /-- asset-registry/src/lib.rs L72-73 -/
  | assetLocationId (l : Location)
  deriving DecidableEq

/-- The pallets with storage (external: their names in a runtime; the lines are at `Slot`). -/
inductive Pallet where
  | teerdays | teerex | enclaveBridge | sidechain | teeracle | claims | assetRegistry
  deriving DecidableEq

/-- The pallet of a storage item: the file cited at each constructor of `Slot`, e.g. teerdays/src/lib.rs L156-166. -/
def Slot.pallet : Slot → Pallet
  | .teerDayBonds _ | .pendingUnlock _ => .teerdays
  | .sovereignEnclaves _ | .proxiedEnclaves _ | .quotingEnclave | .tcbInfo _ | .allowDebug | .allowSkip => .teerex
  | .shardStatus _ | .shardConfig _ | .executedUnshieldCalls _ => .enclaveBridge
  | .latestConfirmation _ => .sidechain
  | .exchangeRate _ _ | .oracleData _ _ | .whitelist _ => .teeracle
  | .claim _ | .claimsTotal | .vesting _ | .signing _ | .preclaim _ => .claims
  | .assetIdLocation _ | .assetLocationId _ => .assetRegistry

/-- The name of a storage item: the name of its type alias at the lines cited in `Slot`, e.g. teerdays/src/lib.rs
L158 and L165. -/
def Slot.item : Slot → String
  | .teerDayBonds _ => "TeerDayBonds"
  | .pendingUnlock _ => "PendingUnlock"
  | .sovereignEnclaves _ => "SovereignEnclaves"
  | .proxiedEnclaves _ => "ProxiedEnclaves"
  | .quotingEnclave => "SgxQuotingEnclaveRegistry"
  | .tcbInfo _ => "SgxTcbInfo"
  | .allowDebug => "SgxAllowDebugMode"
  | .allowSkip => "AllowSkippingAttestation"
  | .shardStatus _ => "ShardStatus"
  | .shardConfig _ => "ShardConfigRegistry"
  | .executedUnshieldCalls _ => "ExecutedUnshieldCalls"
  | .latestConfirmation _ => "LatestSidechainBlockConfirmation"
  | .exchangeRate _ _ => "ExchangeRates"
  | .oracleData _ _ => "OracleData"
  | .whitelist _ => "Whitelists"
  | .claim _ => "Claims"
  | .claimsTotal => "Total"
  | .vesting _ => "Vesting"
  | .signing _ => "Signing"
  | .preclaim _ => "Preclaims"
  | .assetIdLocation _ => "AssetIdLocation"
  | .assetLocationId _ => "AssetLocationId"

/-- What follows the 32 byte prefix of a storage item (hashers at the lines cited in `Slot`, e.g. teerdays/src/lib.rs
L159): nothing for a `StorageValue`,
the hashed key of a map, both hashed keys of a double map; the maps of claims have the hasher `Identity`. The
names of the items are hashed as their ASCII bytes. -/
def Slot.suffix (h : KeyHash) (loc : Codec Location) : Slot → Bytes
  | .teerDayBonds a => blakeConcat h (arr 32) a
  | .pendingUnlock a => blakeConcat h (arr 32) a
  | .sovereignEnclaves a => blakeConcat h (arr 32) a
  | .proxiedEnclaves a => blakeConcat h instanceAddress a
  | .quotingEnclave => []
  | .tcbInfo f => blakeConcat h (arr 6) f
  | .allowDebug => []
  | .allowSkip => []
  | .shardStatus s => blakeConcat h (arr 32) s
  | .shardConfig s => blakeConcat h (arr 32) s
  | .executedUnshieldCalls x => blakeConcat h (arr 32) x
  | .latestConfirmation s => blakeConcat h (arr 32) s
  | .exchangeRate p s => blakeConcat h bytes p ++ blakeConcat h bytes s
  | .oracleData n s => blakeConcat h bytes n ++ blakeConcat h bytes s
  | .whitelist s => blakeConcat h bytes s
  | .claim a => (arr 20).enc a
  | .claimsTotal => []
  | .vesting a => (arr 20).enc a
  | .signing a => (arr 20).enc a
  | .preclaim a => (arr 32).enc a
  | .assetIdLocation i => blakeConcat h (le w.asset) i
  | .assetLocationId l => blakeConcat h loc l

/-- The storage key of an entry (external, frame_support). `names` are the names of the pallets in the runtime. -/
def Slot.key (h : KeyHash) (names : Pallet → Bytes) (loc : Codec Location) (s : Slot) : Bytes :=
  itemPrefix h (names s.pallet) (asciiBytes s.item) ++ s.suffix w h loc

end Scale

end Verif
