import Verif.Spec.Bridge
import Verif.Spec.Shard

/-!
# Specification: how far enclaves of untrusted code reach
-/

namespace Verif

/-- All enclaves of the account run code from `F`, for instance code that turned out to be broken. -/
def RunsOnly (F : Fingerprint → Prop) (s : Chain) (a : AccountId) : Prop :=
  ∀ e, s.tx.sovereign a = some e → F e.mrEnclave

/-- The shard has a configuration, and neither that nor a pending one names code from `F`. -/
def KeepsOut (F : Fingerprint → Prop) (s : Chain) (shard : ShardId) : Prop :=
  ∃ u, s.br.config shard = some u ∧ ¬ F u.active.fingerprint ∧ ∀ p, u.pending = some p → ¬ F p.fingerprint

/-- No code from `F` is on the whitelist of the source. -/
def NotListed (F : Fingerprint → Prop) (s : Chain) (src : Bytes) : Prop := ∀ f ∈ s.orc.whitelist src, ¬ F f

/-- The configuration and the last finalised block of the shard are as before; so is its status, unless code from `F` has the
shard's own number as measurement. -/
def ShardKept (F : Fingerprint → Prop) (s t : Chain) (shard : ShardId) : Prop :=
  t.br.config shard = s.br.config shard ∧ t.sc.latest shard = s.sc.latest shard ∧
  (¬ F shard → t.br.status shard = s.br.status shard)

/-- What was reported for the source, and who may report for it, is as before. -/
def SourceKept (s t : Chain) (src : Bytes) : Prop :=
  t.orc.whitelist src = s.orc.whitelist src ∧ (∀ n, t.orc.blobs n src = s.orc.blobs n src) ∧
  ∀ p, t.orc.rates p src = s.orc.rates p src

end Verif
