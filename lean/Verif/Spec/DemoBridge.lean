import Verif.Spec.DemoSgx
import Verif.Spec.Bridge

/-!
# A concrete history on the bridge, used only in the examples and counterexamples
-/

namespace Verif.Demo

/-- The shard of enclave code 7, which is also the shard's account. -/
def shard7 : ShardId := Arr.fill 32 7
def hash1 : H256 := Arr.fill 32 101
def hash2 : H256 := Arr.fill 32 102

/-- `a` registers an enclave with measurement `m`, `m`, ... -/
def enroll (a : AccountId) (m : UInt8) : Op :=
  .ext (.signed a) (.registerSgxEnclave (bytes 32 m) none (.skip false))

def shield (a : AccountId) (n : Nat) : Op := .ext (.signed a) (.shieldFunds shard7 [1, 2] n)
def unshield (a ben : AccountId) (n : Nat) (h : H256) : Op := .ext (.signed a) (.unshieldFunds shard7 ben n h)

/-- Configuration with fingerprint `m`, `m`, ... -/
def config (m : UInt8) : ShardConfig :=
  { fingerprint := Arr.fill 32 m, maxInstances := none, authorities := none, maintenance := false }

/-- Alice and Carol run code 7; Bob shields 100; Alice unshields 60 to Carol, Carol confirms. -/
def bridgeHistory : List Op :=
  [enroll alice 7, enroll carol 7, shield bob 100, unshield alice carol 60 hash1, unshield carol carol 60 hash1]

end Verif.Demo
