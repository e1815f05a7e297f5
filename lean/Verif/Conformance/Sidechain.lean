import Verif.Conformance.Bridge

/-!
# sidechain/src/tests.rs on the model

The tests register their enclaves with real attestation certificates; here they are put into the registry directly
(registration from the real certificates is replayed in `Verif/Conformance/Ias.lean`).
-/

namespace Verif.Conf.Sidechain

def c : Cfg := mockCfg
def confirm (a : AccountId) (shard : ShardId) (anc : Option Confirmation) (cand : Confirmation) : Op :=
  .ext (.signed a) (.confirmImportedSidechainBlock shard anc cand)
def finalized (shard : ShardId) (b : Confirmation) (a : AccountId) : Step :=
  check fun s => s.sc.events.head? = some (.finalized shard b.number b.hash a)

/-- `TEST7_MRENCLAVE` (the measurement of test enclaves 6 and 7) and another measurement. -/
def shard7 : ShardId := h 70
def shard4 : ShardId := h 40
def signer7 : AccountId := h 77
def signer6 : AccountId := h 66
/-- `SidechainBlockConfirmation` with number `n` and hash `[n; 32]`. -/
def b (n : UInt8) : Confirmation := ⟨n.toNat, h n⟩
def confirm7 (anc : Option UInt8) (n : UInt8) : Op := confirm signer7 shard7 (anc.map b) (b n)
def latest (shard : ShardId) (n : Nat) : Step := check fun s => (s.sc.latest shard).map (·.number) = some n

/-- `confirm_imported_sidechain_block_works_for_correct_shard`, sidechain/src/tests.rs L37-81. -/
example : play mock [register signer7 shard7, ok c (confirm7 none 2), finalized shard7 (b 2) signer7,
    ok c (confirm7 (some 2) 25), finalized shard7 (b 25) signer7] = true := by decide +kernel

/-- `confirm_imported_sidechain_block_from_shard_neq_mrenclave_errs`, sidechain/src/tests.rs L84-106. -/
example : play mock [register signer7 shard7,
    noop c (confirm signer7 shard4 none (b 2)) .wrongFingerprintForShard] = true := by decide +kernel

/-- `confirm_imported_sidechain_block_outdated_candidate_block_number_fails`, sidechain/src/tests.rs L109-148. -/
example : play mock [register signer7 shard7, ok c (confirm7 none 100), finalized shard7 (b 100) signer7,
    latest shard7 100, noop c (confirm7 none 100) .ancestorMissing, ok c (confirm7 (some 100) 101),
    finalized shard7 (b 101) signer7, latest shard7 101,
    noop c (confirm7 (some 100) 101) .finalizationCandidateIsOutdated,
    noop c (confirm7 (some 101) 101) .finalizationCandidateIsOutdated,
    noop c (confirm7 (some 101) 100) .finalizationCandidateIsOutdated] = true := by decide +kernel

/-- `dont_process_confirmation_of_second_registered_enclave`, sidechain/src/tests.rs L151-182. -/
example : play mock [register signer7 shard7, ok c (confirm7 none 1), finalized shard7 (b 1) signer7, latest shard7 1,
    register signer6 shard7, ok c (confirm signer6 shard7 (some (b 1)) (b 2)), latest shard7 1,
    check fun s => s.sc.events.length = 1] = true := by decide +kernel

/-- Block `n` with hash zero. -/
def z (n : Nat) : Confirmation := ⟨n, fp0⟩

/-- `confirm_imported_sidechain_block_works_for_correct_shard_with_updated_fingerprint`, sidechain/src/tests.rs L185-282. -/
example : play mock [block 1, register eve fp0, ok c (Bridge.update (.signed eve) fp0 fp0 0),
    ok c (confirm eve fp0 none (z 1)), finalized fp0 (z 1) eve, ok c (Bridge.update (.signed eve) fp0 (h 2) 1),
    ok c (confirm eve fp0 (some (z 1)) (z 2)), finalized fp0 (z 2) eve, register eve (h 2),
    noop c (confirm eve fp0 (some (z 2)) (z 3)) .wrongFingerprintForShard, block 2,
    ok c (confirm eve fp0 (some (z 2)) (z 3)), finalized fp0 (z 3) eve] = true := by decide +kernel

/-- `two_sidechains_with_different_fingerprint_works`, sidechain/src/tests.rs L285-363. -/
example : play mock [block 1, register eve fp0, ok c (confirm eve fp0 none (z 1)), finalized fp0 (z 1) eve, block 2,
    register ferdie (h 1), ok c (confirm ferdie (h 1) none ⟨1, h 2⟩), finalized (h 1) ⟨1, h 2⟩ ferdie,
    check fun s => s.br.status fp0 = some [⟨eve, fp0, 1⟩], check fun s => s.br.status (h 1) = some [⟨ferdie, h 1, 2⟩],
    check fun s => s.sc.latest fp0 = some (z 1), check fun s => s.sc.latest (h 1) = some ⟨1, h 2⟩] = true := by
  decide +kernel

end Verif.Conf.Sidechain
