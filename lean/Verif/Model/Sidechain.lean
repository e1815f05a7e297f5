import Verif.Model.EnclaveBridge

/-!
# Model of sidechain/src/lib.rs
-/

namespace Verif

namespace Sidechain

/-- `finalize_block`, sidechain/src/lib.rs L141-161. -/
def finalizeBlock (s : Chain) (shard : ShardId) (conf : Confirmation) (sender : AccountId) : Chain :=
  { s with sc :=
    { latest := upd s.sc.latest shard (some conf)
      events := .finalized shard conf.number conf.hash sender :: s.sc.events } }

/-- `confirm_imported_sidechain_block`, sidechain/src/lib.rs L93-136. `shard_status[0]` on an empty list is
the explicit panic. -/
def confirmImportedSidechainBlock (s : Chain) (o : Origin) (shard : ShardId) (ancestor : Option Confirmation)
    (candidate : Confirmation) : Except Err Chain := do
  let sender ← ensureSigned o
  let (_, status, s) ← EnclaveBridge.getSovereignEnclaveAndTouchShard s sender shard s.block
  let first ← okOr status.head? .panic
  if sender ≠ first.signer then .ok s
  else do
    match s.sc.latest shard with
    | some known => do
      let provided ← okOr ancestor .ancestorMissing
      ensure (decide (candidate.number > known.number)) .finalizationCandidateIsOutdated
      ensure (known.number == provided.number) .ancestorNumberMismatch
      ensure (known.hash == provided.hash) .ancestorHashMismatch
    | none => pure ()
    .ok (finalizeBlock s shard candidate sender)

end Sidechain

end Verif
