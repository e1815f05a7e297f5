import Verif.Model.Runtime

/-!
# Weights: what a call is declared to cost

The weight of a call is announced before it runs, from its arguments alone. The weight functions of a runtime are
chosen by the runtime; modelled are the ones that the repository offers for it (`IntegriteeWeight`, `SubstrateWeight`),
not the ones for tests (`impl WeightInfo for ()`). For pallet claims the repository has none
(claims/src/lib.rs L52-69 is for tests), so its calls have no entry here.
-/

namespace Verif

/-- `Weight` of sp_weights (external): execution time in picoseconds and size of the storage proof in bytes, both
`u64`. -/
structure Weight where
  refTime : Nat
  proofSize : Nat
  deriving DecidableEq

/-- `RuntimeDbWeight` of frame_support (external): execution time of one read and of one write. -/
structure DbWeight where
  read : Nat
  write : Nat

/-- One summand of a weight (e.g. teerdays/src/weights.rs L46-49): `Weight::from_parts(t, p)`, `Weight::from_parts(t,
p).saturating_mul(n)`, `T::DbWeight::get().reads(n)`, `T::DbWeight::get().writes(n)`. -/
inductive Summand where
  | parts (t p : Nat)
  | per (t p n : Nat)
  | reads (n : Nat)
  | writes (n : Nat)
  deriving DecidableEq

/-- `Weight::saturating_add` (external). -/
def Weight.add (a b : Weight) : Weight :=
  ⟨min EnclaveBridge.u64Max (a.refTime + b.refTime), min EnclaveBridge.u64Max (a.proofSize + b.proofSize)⟩

/-- The value of a summand (external: `saturating_mul` of `Weight`, `reads` and `writes` of `RuntimeDbWeight`, which
count execution time only). -/
def Summand.weight (db : DbWeight) : Summand → Weight
  | .parts t p => ⟨t, p⟩
  | .per t p n => ⟨min EnclaveBridge.u64Max (t * n), min EnclaveBridge.u64Max (p * n)⟩
  | .reads n => ⟨min EnclaveBridge.u64Max (db.read * n), 0⟩
  | .writes n => ⟨min EnclaveBridge.u64Max (db.write * n), 0⟩

/-- A weight function (e.g. teerdays/src/weights.rs L41-50): its summands in the order of the source. -/
abbrev WeightFn := List Summand

/-- The weight (e.g. teerdays/src/weights.rs L46-49): summands are added from the left, with saturation. -/
def WeightFn.weight (db : DbWeight) (f : WeightFn) : Weight :=
  f.foldl (fun w x => w.add (x.weight db)) ⟨0, 0⟩

/-- The number of writes in a weight (e.g. teerdays/src/weights.rs L49). -/
def WeightFn.writes (f : WeightFn) : Nat :=
  (f.map fun | .writes n => n | _ => 0).sum

/-- The number of reads in a weight (e.g. teerdays/src/weights.rs L48). -/
def WeightFn.reads (f : WeightFn) : Nat :=
  (f.map fun | .reads n => n | _ => 0).sum

namespace Weights

/-- teerdays/src/weights.rs L41-50 -/
def bond : WeightFn := [.parts 86401000 0, .parts 0 4764, .reads 5, .writes 3]
/-- teerdays/src/weights.rs L57-66 -/
def unbond : WeightFn := [.parts 56711000 0, .parts 0 3718, .reads 3, .writes 2]
/-- teerdays/src/weights.rs L71-80 -/
def updateOther : WeightFn := [.parts 37183000 0, .parts 0 3718, .reads 2, .writes 1]
/-- teerdays/src/weights.rs L91-100 -/
def withdrawUnbonded : WeightFn := [.parts 82512000 0, .parts 0 4764, .reads 5, .writes 3]

/-- teerex/src/weights.rs L74-83 -/
def registerSgxEnclave : WeightFn := [.parts 2049028000 0, .parts 0 3859, .reads 4, .writes 1]
/-- teerex/src/weights.rs L88-97 -/
def registerQuotingEnclave : WeightFn := [.parts 1031990000 0, .parts 0 1493, .reads 1, .writes 1]
/-- teerex/src/weights.rs L102-111 -/
def registerTcbInfo : WeightFn := [.parts 1128361000 0, .parts 0 1493, .reads 1, .writes 1]
/-- teerex/src/weights.rs L116-125 -/
def unregisterSovereignEnclave : WeightFn := [.parts 18139000 0, .parts 0 3938, .reads 2, .writes 1]
/-- teerex/src/weights.rs L130-139 -/
def unregisterProxiedEnclave : WeightFn := [.parts 21264000 0, .parts 0 4040, .reads 2, .writes 1]
/-- teerex/src/weights.rs L140-142 -/
def setSecurityFlags : WeightFn := [.parts 46200000 0]

/-- enclave-bridge/src/weights.rs L65-71 -/
def invoke : WeightFn := [.parts 26600000 0, .parts 0 0]
/-- enclave-bridge/src/weights.rs L74-82 -/
def confirmProcessedParentchainBlock : WeightFn := [.parts 28700000 0, .parts 0 2717, .reads 1]
/-- enclave-bridge/src/weights.rs L84-86 -/
def shieldFunds : WeightFn := [.parts 26600000 0, .parts 0 0]
/-- enclave-bridge/src/weights.rs L88-90 -/
def unshieldFunds : WeightFn := [.parts 26600000 0, .parts 0 0]
/-- enclave-bridge/src/weights.rs L100-116; `l` and `t` are `u32` -/
def publishHash (l t : Nat) : WeightFn :=
  [.parts 28179644 0, .parts 0 8511, .per 318271 0 l, .per 7329090 0 t, .reads 3, .reads t, .writes 1, .writes t,
    .per 0 2475 t]
/-- enclave-bridge/src/weights.rs L123-132 -/
def updateShardConfig : WeightFn := [.parts 28742000 0, .parts 0 3928, .reads 3, .writes 2]
/-- enclave-bridge/src/weights.rs L134-138 -/
def purgeEnclave : WeightFn := [.parts 10000000 0, .reads 1, .writes 1]

/-- sidechain/src/weights.rs L32-36 -/
def confirmImportedSidechainBlock : WeightFn := [.parts 46200000 0, .reads 1, .writes 2]

/-- teeracle/src/weights.rs L36-45 -/
def updateExchangeRate : WeightFn := [.parts 49230000 0, .parts 0 3919, .reads 3, .writes 1]
/-- teeracle/src/weights.rs L52-61 -/
def updateOracle : WeightFn := [.parts 41294000 0, .parts 0 3910, .reads 2, .writes 1]
/-- teeracle/src/weights.rs L64-73 -/
def addToWhitelist : WeightFn := [.parts 19529000 0, .parts 0 3471, .reads 1, .writes 1]
/-- teeracle/src/weights.rs L76-85 -/
def removeFromWhitelist : WeightFn := [.parts 21866000 0, .parts 0 3572, .reads 1, .writes 1]

/-- asset-registry/src/weights.rs L66-75 -/
def registerReserveAsset : WeightFn := [.parts 22970000 0, .parts 0 7762, .reads 2, .writes 2]
/-- asset-registry/src/weights.rs L80-89 -/
def unregisterReserveAsset : WeightFn := [.parts 18454000 0, .parts 0 4087, .reads 1, .writes 2]

end Weights

/-- `saturated_into` from `usize` to `u32` (external), enclave-bridge/src/lib.rs L281. -/
def toU32 (n : Nat) : Nat := min (2 ^ 32 - 1) n

/-- The `#[pallet::weight]` attributes: teerdays/src/lib.rs L173, L198 (`bond_extra` has the weight of `bond`), L228,
L275, L284; teerex/src/lib.rs L294, L449, L473, L497, L519, L539; enclave-bridge/src/lib.rs L161, L171, L205, L231,
L281, L316, L378; sidechain/src/lib.rs L92; teeracle/src/lib.rs L149, L169, L188, L219; asset-registry/src/lib.rs L98,
L128; xcm-transactor/src/lib.rs L126. -/
def Call.weightFn : Call → Option WeightFn
  | .bond _ => some Weights.bond
  | .bondExtra _ => some Weights.bond
  | .unbond _ => some Weights.unbond
  | .updateOther _ => some Weights.updateOther
  | .withdrawUnbonded => some Weights.withdrawUnbonded
  | .registerSgxEnclave _ _ _ => some Weights.registerSgxEnclave
  | .unregisterSovereignEnclave _ => some Weights.unregisterSovereignEnclave
  | .unregisterProxiedEnclave _ => some Weights.unregisterProxiedEnclave
  | .registerQuotingEnclave _ _ _ => some Weights.registerQuotingEnclave
  | .registerTcbInfo _ _ _ => some Weights.registerTcbInfo
  | .setSecurityFlags _ _ => some Weights.setSecurityFlags
  | .invoke _ _ => some Weights.invoke
  | .confirmProcessedParentchainBlock _ _ _ _ => some Weights.confirmProcessedParentchainBlock
  | .shieldFunds _ _ _ => some Weights.shieldFunds
  | .unshieldFunds _ _ _ _ => some Weights.unshieldFunds
  | .publishHash _ extraTopics data => some (Weights.publishHash (toU32 extraTopics.length) (toU32 data.length))
  | .updateShardConfig _ _ _ => some Weights.updateShardConfig
  | .purgeEnclave _ _ => some Weights.purgeEnclave
  | .confirmImportedSidechainBlock _ _ _ => some Weights.confirmImportedSidechainBlock
  | .addToWhitelist _ _ => some Weights.addToWhitelist
  | .removeFromWhitelist _ _ => some Weights.removeFromWhitelist
  | .updateOracle _ _ _ => some Weights.updateOracle
  | .updateExchangeRate _ _ _ => some Weights.updateExchangeRate
  | .claims _ => none
  | .registerReserveAsset _ _ => some Weights.registerReserveAsset
  | .unregisterReserveAsset _ => some Weights.unregisterReserveAsset
  | .sendSwapUmp _ _ _ _ => some [.parts 46200000 0]
  | .balTransfer _ _ => none

end Verif
