import Verif.Model.Weights
import Verif.Model.Scale

/-!
# Specification: storage cells and the cost of calls

A cell is one storage entry. Counted are the entries of the pallets of the repository, accounts and their locks (which
the calls of these pallets change through the currency), and the index of events by topic.
-/

namespace Verif

/-- A storage entry: of one of the pallets, an account (`System::Account`: balance and frozen part), the locks of an
account (`Balances::Locks`), or the list of events with some topic (`System::EventTopics`). -/
inductive Cell where
  | slot (x : Scale.Slot)
  | account (a : AccountId)
  | locks (a : AccountId)
  | topic (h : H256)
  deriving DecidableEq

/-- The topics of an event. -/
def BrEvent.topics : BrEvent → List H256
  | .publishedHash topics _ _ _ => topics
  | _ => []

/-- The entry of a pallet is the same in both states. -/
def Scale.Slot.same (s t : Chain) : Scale.Slot → Prop
  | .teerDayBonds a => s.td.bonds a = t.td.bonds a
  | .pendingUnlock a => s.td.pending a = t.td.pending a
  | .sovereignEnclaves a => s.tx.sovereign a = t.tx.sovereign a
  | .proxiedEnclaves a => s.tx.proxied a = t.tx.proxied a
  | .quotingEnclave => s.tx.qe = t.tx.qe
  | .tcbInfo f => s.tx.tcb f = t.tx.tcb f
  | .allowDebug => s.tx.allowDebug = t.tx.allowDebug
  | .allowSkip => s.tx.allowSkip = t.tx.allowSkip
  | .shardStatus i => s.br.status i = t.br.status i
  | .shardConfig i => s.br.config i = t.br.config i
  | .executedUnshieldCalls h => s.br.executed h = t.br.executed h
  | .latestConfirmation i => s.sc.latest i = t.sc.latest i
  | .exchangeRate p q => s.orc.rates p q = t.orc.rates p q
  | .oracleData n q => s.orc.blobs n q = t.orc.blobs n q
  | .whitelist q => s.orc.whitelist q = t.orc.whitelist q
  | .claim a => s.cl.claims a = t.cl.claims a
  | .claimsTotal => s.cl.total = t.cl.total
  | .vesting a => s.cl.vesting a = t.cl.vesting a
  | .signing a => s.cl.signing a = t.cl.signing a
  | .preclaim a => s.cl.preclaims a = t.cl.preclaims a
  | .assetIdLocation i => s.ar.idLoc i = t.ar.idLoc i
  | .assetLocationId l => s.ar.locId l = t.ar.locId l

/-- The cell is the same in both states. -/
def Cell.same (s t : Chain) : Cell → Prop
  | .slot x => x.same s t
  | .account a => s.bal.free a = t.bal.free a ∧ s.bal.frozen a = t.bal.frozen a
  | .locks a => ∀ id, s.bal.lock id a = t.bal.lock id a
  | .topic h => s.br.events.filter (h ∈ ·.topics) = t.br.events.filter (h ∈ ·.topics)

/-- At most `n` cells differ. -/
def AtMostDiffer (n : Nat) (s t : Chain) : Prop :=
  ∃ l : List Cell, l.length ≤ n ∧ ∀ x, x ∉ l → x.same s t

/-- `a` is at most `b` in both components. -/
def Weight.atMost (a b : Weight) : Prop := a.refTime ≤ b.refTime ∧ a.proofSize ≤ b.proofSize

/-- What was measured for publishing a hash with `bytes` bytes of data and `topics` additional topics: a constant part,
a part per byte, a part per topic, four reads and two writes for the first topic and one of each for each further
topic (enclave-bridge/src/benchmarking.rs L104-128 varies exactly these two numbers, enclave-bridge/src/weights.rs
L92-116 gives the result). Simplified: without the saturation at the maximum. -/
def measuredPublishing (db : DbWeight) (bytes topics : Nat) : Weight where
  refTime := 28179644 + 318271 * bytes + 7329090 * topics + db.read * (3 + topics) + db.write * (1 + topics)
  proofSize := 8511 + 2475 * topics

end Verif
