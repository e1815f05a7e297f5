import Verif.Conformance.Basic

/-!
# enclave-bridge/src/tests on the model

Not transliterated: `System::events()` after `reset_events` is compared with the newest events instead, since the
model keeps the events of the whole history.
-/

namespace Verif.Conf

/-- `register_sovereign_test_enclave`, enclave-bridge/src/tests/mod.rs L38-50 and sidechain/src/tests.rs L436-448,
with `SgxEnclave::test_enclave` of test-utils/src/lib.rs L33-46. -/
def testEnclave (signer : AccountId) (fp : Fingerprint) (now : Nat) : SgxEnclave where
  reportData := ⟨signer.val ++ List.replicate 32 0, by simp [signer.2]⟩
  mrEnclave := fp
  mrSigner := Arr.zero 32
  timestamp := now
  url := none
  buildMode := .production
  method := .skip false
  status := .invalid

def register (signer : AccountId) (fp : Fingerprint) : Step :=
  call fun s => Teerex.addEnclave s signer (testEnclave signer fp s.now)

def brEvent (e : BrEvent) : Step := check fun s => s.br.events.contains e
def free (a : AccountId) (n : Nat) : Step := check fun s => s.bal.free a = n

def eve : AccountId := Arr.fill 32 5
def ferdie : AccountId := Arr.fill 32 6
/-- `EnclaveFingerprint::default()`, `ShardIdentifier::default()`, `H256::default()`. -/
def fp0 : Arr 32 := Arr.zero 32
/-- `[b; 32]`. -/
def h (b : UInt8) : Arr 32 := Arr.fill 32 b
/-- `NOW`, enclave-bridge/src/tests/mod.rs L52. -/
def NOW : Nat := 1587899785000
def time (t : Nat) : Step := put fun s => { s with now := t }
def block (n : Nat) : Step := put fun s => { s with block := n }

namespace Bridge

def c : Cfg := mockCfg
def update (o : Origin) (shard : ShardId) (fp : Fingerprint) (delay : Nat) : Op :=
  .ext o (.updateShardConfig shard (.new fp) delay)
def confirm (a : AccountId) (shard : ShardId) (n : Nat) : Op :=
  .ext (.signed a) (.confirmProcessedParentchainBlock shard fp0 n fp0)
def unshield (shard : ShardId) (amount : Nat) : Op :=
  .ext (.signed eve) (.unshieldFunds shard bob amount (h 1))
def shield (shard : ShardId) : Op := .ext (.signed alice) (.shieldFunds shard [1, 2, 3] 100)

/-! ### test_indirect_invocation.rs -/

/-- `invoke_works`, enclave-bridge/src/tests/test_indirect_invocation.rs L26-39. -/
example : play mock [ok c (.ext (.signed alice) (.invoke fp0 [0, 1, 2, 3, 4])),
    brEvent (.indirectInvocationRegistered fp0)] = true := by decide +kernel

/-- `unshield_is_only_executed_once_for_the_same_call_hash`, enclave-bridge/src/tests/test_indirect_invocation.rs L42-93. -/
example : play mock [time NOW, register eve fp0, ok c (.ext (.signed alice) (.balTransfer fp0 (2 ^ 50))),
    ok c (unshield fp0 50), brEvent (.unshieldedFunds fp0 bob 50), ok c (unshield fp0 50),
    check fun s => s.br.events.length = 1, check fun s => s.br.executed (h 1) = some 2] = true := by decide +kernel

/-- `verify_unshield_funds_works`, enclave-bridge/src/tests/test_indirect_invocation.rs L96-145. -/
example : play mock [time NOW, register eve fp0, ok c (shield fp0), free fp0 100,
    brEvent (.shieldFunds fp0 [1, 2, 3] 100), ok c (unshield fp0 50), free fp0 50,
    brEvent (.unshieldedFunds fp0 bob 50)] = true := by decide +kernel

/-- `unshield_funds_from_not_registered_enclave_errs`, enclave-bridge/src/tests/test_indirect_invocation.rs L148-166. -/
example : play mock [time NOW, noop c (unshield fp0 51) .enclaveIsNotRegistered] = true := by decide +kernel

/-- `unshield_funds_from_enclave_on_wrong_shard_errs`, enclave-bridge/src/tests/test_indirect_invocation.rs L169-217. -/
example : play mock [time NOW, register eve fp0, ok c (shield fp0), ok c (shield (h 222)),
    noop c (unshield (h 222) 50) .wrongFingerprintForShard, free fp0 100, free (h 222) 100] = true := by
  decide +kernel

/-- `confirm_processed_parentchain_block_works`, enclave-bridge/src/tests/test_indirect_invocation.rs L220-246. -/
example : play mock [register eve fp0, ok c (confirm eve fp0 3),
    brEvent (.processedParentchainBlock fp0 fp0 fp0 3)] = true := by decide +kernel

/-- `confirm_processed_parentchain_block_from_unregistered_enclave_fails`, enclave-bridge/src/tests/test_indirect_invocation.rs L249-265. -/
example : play mock [noop c (confirm eve fp0 3) .enclaveIsNotRegistered] = true := by decide +kernel

/-- `confirm_processed_parentchain_block_from_wrong_enclave_fails`, enclave-bridge/src/tests/test_indirect_invocation.rs L268-286. -/
example : play mock [register eve fp0, noop c (confirm eve (h 42) 3) .wrongFingerprintForShard] = true := by
  decide +kernel

/-- `confirm_processed_parentchain_block_from_updated_enclave_works`, enclave-bridge/src/tests/test_indirect_invocation.rs L289-345. -/
example : play mock [time NOW, block 1, register eve fp0, ok c (update (.signed eve) fp0 fp0 0),
    ok c (confirm eve fp0 1), ok c (update (.signed eve) fp0 (h 2) 1), ok c (confirm eve fp0 1), block 2,
    register eve (h 2), ok c (confirm eve fp0 2)] = true := by decide +kernel

/-! ### test_publish_hash.rs -/

/-- The bytes of `b"hello world"`. -/
def hello : Bytes := [104, 101, 108, 108, 111, 32, 119, 111, 114, 108, 100]

/-- `publish_hash_works`, enclave-bridge/src/tests/test_publish_hash.rs L25-88. -/
example : play mock [register eve fp0, block 1, ok c (.ext (.signed eve) (.publishHash (h 1) [h 2, h 3] hello)),
    ok c (.ext (.signed eve) (.publishHash (h 1) [] [])),
    check fun s => s.br.events.reverse =
      [.publishedHash [h 2, h 3, fp0] fp0 (h 1) hello, .publishedHash [fp0] fp0 (h 1) []]] = true := by
  decide +kernel

/-- `publish_hash_with_unregistered_enclave_fails`, enclave-bridge/src/tests/test_publish_hash.rs L91-105. -/
example : play mock [noop c (.ext (.signed eve) (.publishHash (h 1) [] [])) .enclaveIsNotRegistered] = true := by
  decide +kernel

/-- `publish_hash_with_too_many_topics_fails`, enclave-bridge/src/tests/test_publish_hash.rs L108-134. -/
example : play mock [register eve fp0,
    noop c (.ext (.signed eve) (.publishHash (h 1) [h 0, h 1, h 2, h 3, h 4, h 5] [])) .tooManyTopics] = true := by
  decide +kernel

/-- `publish_hash_with_too_much_data_fails`, enclave-bridge/src/tests/test_publish_hash.rs L137-151. -/
example : play mock [register eve fp0,
    noop c (.ext (.signed eve) (.publishHash (h 1) [] (List.replicate 101 0))) .dataTooLong] = true := by
  decide +kernel

/-! ### test_shard_config.rs -/

/-- `initial_update_shard_config_works`, enclave-bridge/src/tests/test_shard_config.rs L26-45. -/
example : play mock [time NOW, register eve fp0, ok c (update (.signed eve) fp0 fp0 0),
    brEvent (.shardConfigUpdated fp0)] = true := by decide +kernel

/-- `initial_update_shard_config_as_non_enclave_fails`, enclave-bridge/src/tests/test_shard_config.rs L48-62. -/
example : play mock [time NOW, noop c (update (.signed eve) (h 1) fp0 0) .enclaveIsNotRegistered] = true := by
  decide +kernel

/-- `initial_update_shard_config_on_foreign_shard_works`, enclave-bridge/src/tests/test_shard_config.rs L66-90. -/
example : play mock [time NOW, register eve fp0, ok c (update (.signed eve) (h 1) fp0 0),
    ok c (update .root (h 2) fp0 0)] = true := by decide +kernel

/-- `update_shard_config_to_new_fingerprint_works`, enclave-bridge/src/tests/test_shard_config.rs L93-142. -/
example : play mock [time NOW, register eve fp0, ok c (update (.signed eve) fp0 fp0 0),
    brEvent (.shardConfigUpdated fp0), ok c (update (.signed eve) fp0 (h 1) 10), brEvent (.shardConfigUpdated fp0),
    ok c (update .root (h 2) (h 2) 0), ok c (update .root fp0 (h 3) 10), brEvent (.shardConfigUpdated (h 2))] =
    true := by decide +kernel

/-- `update_existing_shard_config_as_non_enclave_fails`, enclave-bridge/src/tests/test_shard_config.rs L145-171. -/
example : play mock [time NOW, register eve fp0, ok c (update (.signed eve) fp0 fp0 0),
    noop c (update (.signed alice) fp0 fp0 0) .enclaveIsNotRegistered] = true := by decide +kernel

/-- `update_existing_shard_config_as_wrong_enclave_fails`, enclave-bridge/src/tests/test_shard_config.rs L174-203. -/
example : play mock [time NOW, register eve fp0, register ferdie (h 1), ok c (update (.signed eve) fp0 fp0 0),
    noop c (update (.signed ferdie) fp0 (h 1) 0) .wrongFingerprintForShard] = true := by decide +kernel

/-- The result of `get_maybe_updated_shard_config(shard, block, apply)` has this fingerprint; the state after
it is kept. -/
def active (shard : ShardId) (block : Nat) (apply : Bool) (fp : Fingerprint) : Step := fun s =>
  let (cfg, s') := EnclaveBridge.getMaybeUpdatedShardConfig s shard block apply
  if cfg.map (·.fingerprint) = some fp then some s' else none

/-- `get_maybe_updated_shard_config_works`, enclave-bridge/src/tests/test_shard_config.rs L206-289. -/
example : play mock [time NOW, block 1, register eve fp0, ok c (update (.signed eve) fp0 fp0 0),
    active fp0 1 false fp0, ok c (update (.signed eve) fp0 (h 2) 1), check fun s => s.block = 1,
    check fun s => s.br.config fp0 =
      some ((UpgradableShardConfig.ofConfig (.new fp0)).withPendingUpgrade (.new (h 2)) 2),
    active fp0 1 false fp0, block 2, active fp0 2 false (h 2),
    check fun s => s.br.config fp0 =
      some ((UpgradableShardConfig.ofConfig (.new fp0)).withPendingUpgrade (.new (h 2)) 2),
    active fp0 2 true (h 2), check fun s => s.br.config fp0 = some (.ofConfig (.new (h 2)))] = true := by
  decide +kernel

/-! ### test_shard_status.rs -/

def touch (a : AccountId) (n : Nat) : Step :=
  call fun s => (EnclaveBridge.touchShard s fp0 a fp0 n).map (·.2)
def purge (o : Origin) : Op := .ext o (.purgeEnclave fp0 eve)
def signers (l : List AccountId) : Step := check fun s => (s.br.status fp0).map (·.map (·.signer)) = some l

/-- `purge_enclave_from_shard_status_works_if_present`, enclave-bridge/src/tests/test_shard_status.rs L26-79. -/
example : play mock [time NOW, touch eve 1, ok c (purge .root), brEvent (.purgedEnclave fp0 eve), signers [],
    touch eve 2, touch ferdie 2, signers [eve, ferdie], ok c (purge .root), signers [ferdie]] = true := by
  decide +kernel

/-- `purge_enclave_from_shard_status_for_inexistent_shard_is_err`, enclave-bridge/src/tests/test_shard_status.rs L82-97. -/
example : play mock [time NOW, noop c (purge .root) .shardNotFound] = true := by decide +kernel

/-- `purge_enclave_from_shard_status_fails_if_not_root`, enclave-bridge/src/tests/test_shard_status.rs L100-119. -/
example : play mock [time NOW, touch eve 1, noop c (purge (.signed eve)) .badOrigin] = true := by decide +kernel

end Verif.Conf.Bridge
