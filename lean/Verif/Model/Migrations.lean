import Verif.Model.State

/-!
# Model of teerex/src/migrations.rs

The weights that the migrations return are modelled in `RawMigrations`. `clear(u32::MAX, None)` is modelled as removing all
keys (there are fewer than 2^32 of them).
-/

namespace Verif

namespace Migrations

/-- `EnclaveV0`, teerex/src/migrations.rs L11-17. -/
structure EnclaveV0 where
  pubkey : AccountId
  mrEnclave : MrEnclave
  timestamp : Nat
  url : Bytes
  sgxMode : SgxBuildMode

/-- `SgxTcbInfoOnChainV1`, teerex/src/migrations.rs L42-45. -/
structure TcbInfoV1 where
  issueDate : Nat
  nextUpdate : Nat

/-- The storage that the migrations touch: the on-chain storage version, the v0 items
(teerex/src/migrations.rs L19-31), the storage map `SgxTcbInfo`, whose values may still be of the v1 type
(L47-49), and the rest of the storage of the pallet (`tx`, whose `tcb` component is replaced by `tcbInfo`). -/
structure St where
  version : Nat
  v0Registry : Nat → Option EnclaveV0
  v0Count : Option Nat
  v0Index : AccountId → Option Nat
  v0AllowDebug : Option Bool
  tcbInfo : Fmspc → Option (TcbInfoV1 ⊕ SgxTcbInfoOnChain)
  tx : TeerexSt

/-- `MigrateV0toV1::on_runtime_upgrade`, teerex/src/migrations.rs L75-103. -/
def v0ToV1 (s : St) : St :=
  if s.version ≥ 1 then s
  else
    let allowDebug := s.v0AllowDebug.getD false
    { s with
      v0AllowDebug := none
      tx := { s.tx with allowDebug := allowDebug }
      v0Count := none
      v0Registry := fun _ => none
      v0Index := fun _ => none
      version := 1 }

/-- `STORAGE_VERSION`, teerex/src/lib.rs L47: the in-code version. -/
def inCodeVersion : Nat := 2

/-- `MigrateV1toV2::on_runtime_upgrade`, teerex/src/migrations.rs L153-177. -/
def v1ToV2 (s : St) : St :=
  if s.version ≥ inCodeVersion then s
  else { s with tcbInfo := fun _ => none, version := 2 }

/-! ### The checks around the migrations (feature `try-runtime`)

A failed `assert_eq!` or `expect` is `Err.panic`; the error text of `ensure!` on L141 is `Err.other`. -/

/-- Encoding of `(StorageVersion, u64, bool)`, teerex/src/migrations.rs L71 (derived; `StorageVersion` is a `u16`). -/
def encodeV1 (version count : Nat) (debug : Bool) : Bytes := toLE 2 version ++ toLE 8 count ++ [if debug then 1 else 0]

/-- Decoding of `(StorageVersion, u64, bool)`, teerex/src/migrations.rs L107-111. -/
def decodeV1 (b : Bytes) : Option (Nat × Nat × Bool) :=
  if 11 ≤ b.length then
    match (b[10]? : Option UInt8) with
    | some 0 => some (leNat (b.take 2), leNat ((b.drop 2).take 8), false)
    | some 1 => some (leNat (b.take 2), leNat ((b.drop 2).take 8), true)
    | _ => none
  else none

/-- `MigrateV0toV1::pre_upgrade`, teerex/src/migrations.rs L54-72. -/
def preV1 (s : St) : Bytes := encodeV1 s.version (s.v0Count.getD 0) (s.v0AllowDebug.getD false)

/-- `MigrateV0toV1::post_upgrade`, teerex/src/migrations.rs L106-126. -/
def postV1 (s : St) (state : Bytes) : Except Err Unit := do
  let (preVersion, _, debug) ← okOr (decodeV1 state) .panic
  if preVersion ≥ s.version then .ok ()
  else do
    ensure (s.version == 1) .panic
    ensure (s.v0Count.getD 0 == 0) .panic
    ensure (s.tx.allowDebug == debug) .panic

/-- `iter_keys().count()` of the map `SgxTcbInfo`, teerex/src/migrations.rs L143, L185: `n` is the number of keys. -/
def TcbCount (s : St) (n : Nat) : Prop :=
  ∃ keys : List Fmspc, keys.Nodup ∧ (∀ k, k ∈ keys ↔ (s.tcbInfo k).isSome) ∧ keys.length = n

/-- `MigrateV1toV2::pre_upgrade`, teerex/src/migrations.rs L138-150, for a storage with `n` TCB infos. -/
def preV2 (s : St) (n : Nat) : Except Err Bytes := do
  ensure (s.version == 1 && inCodeVersion == 2) .other
  .ok (toLE 8 n)

/-- `MigrateV1toV2::post_upgrade`, teerex/src/migrations.rs L180-189, for a storage with `n` TCB infos. -/
def postV2 (s : St) (n : Nat) (state : Bytes) : Except Err Unit := do
  ensure (s.version == 2) .panic
  ensure (decide (8 ≤ state.length)) .panic
  ensure (n == 0) .panic

end Migrations

end Verif
