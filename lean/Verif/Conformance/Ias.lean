import Verif.Conformance.IasData
import Verif.Conformance.Bridge

/-!
# The IAS tests of teerex/src/tests/test_cases.rs and teerex/sgx-verify/src/tests.rs on the model

The certificates are the ones in /repo, with Intel's real signatures, and the external functions are the executable
ones of `Verif/Conformance/External.lean`. Tests which use the same certificate are grouped, because the kernel then
checks the certificate only once.
-/

namespace Verif.Conf.Ias

open Data

def c : Cfg := { mockCfg with ext := Conf.ext }
/-- `new_test_production_ext`, teerex/src/mock.rs L172-191. -/
def production : Chain := { genesis mockBal false false Demo.noClaims with block := 1 }

/-- The account of a test enclave. -/
def acc (b : Bytes) : AccountId := (Arr.ofBytes? 32 b).getD (Arr.zero 32)
def hex32 (n : Nat) : Arr 32 := acc (beBytes 32 n)
def s4 : AccountId := acc signer4
def s5 : AccountId := acc signer5
def s7 : AccountId := acc signer7
def s8 : AccountId := acc signer8
def TEST4_TIMESTAMP : Nat := 1587899785000
def TEST7_TIMESTAMP : Nat := 1587900450000
def TEST8_TIMESTAMP : Nat := 1634156700000
def TEST4_MRENCLAVE : Arr 32 := hex32 0x7a3454ec8f42e265cb5be7dfd111e1d95ac6076ed82a0948b2e2a45cf17b62a0
def TEST4_MRSIGNER : Arr 32 := hex32 0x83d719e77deaca1470f6baf62a4d774303c899db69020f9c70ee1dfc08c7ce9e
def TEST8_MRENCLAVE : Arr 32 := hex32 0xbcf66abfc6b3ef259e9ecfe4cf8df667a7f5a546525dee16822741b38f6e6050
def TEST8_MRSIGNER : Arr 32 := hex32 0x117f95f65f06afb5764b572156b8b525c6230db7d6b1c94e8ebdb7fba068f4e8
def DAY : Nat := 86400000
/-- `URL`, teerex/sgx-verify/src/test_data.rs L179-180. -/
def URL : Bytes := [119, 115, 58, 47, 47, 49, 50, 55, 46, 48, 46, 48, 46, 49, 58, 57, 57, 57, 49]
/-- "my fancy url" -/
def url2 : Bytes := [109, 121, 32, 102, 97, 110, 99, 121, 32, 117, 114, 108]

def reg (a : AccountId) (cert : Bytes) (url : Bytes) : Op :=
  .ext (.signed a) (.registerSgxEnclave cert (some url) .ias)
def has (a : AccountId) (b : Bool) : Step := check fun s => (s.tx.sovereign a).isSome = b
def entry (a : AccountId) (e : SgxEnclave) : Step := check fun s => s.tx.sovereign a = some e
/-- `assert!(call.is_err())`. -/
def fails (op : Op) : Step := fun s => match exec c s op with | .ok _ => none | .error _ => some s

/-- The entry expected for test enclave 4, e.g. teerex/src/tests/test_cases.rs L421-430. -/
def e4 : SgxEnclave where
  reportData := (Arr.ofBytes? 64 (signer4 ++ List.replicate 32 0)).getD (Arr.zero 64)
  mrEnclave := TEST4_MRENCLAVE
  mrSigner := TEST4_MRSIGNER
  timestamp := TEST4_TIMESTAMP
  url := some URL
  buildMode := .debug
  method := .ias
  status := .configurationNeeded
/-- The entry expected for test enclave 8, e.g. teerex/src/tests/test_cases.rs L569-578. -/
def e8 : SgxEnclave where
  reportData := (Arr.ofBytes? 64 (signer8 ++ List.replicate 32 0)).getD (Arr.zero 64)
  mrEnclave := TEST8_MRENCLAVE
  mrSigner := TEST8_MRSIGNER
  timestamp := TEST8_TIMESTAMP
  url := some URL
  buildMode := .production
  method := .ias
  status := .invalid

/-- `add_enclave_works`, teerex/src/tests/test_cases.rs L359-372. -/
def add_enclave_works : List Step := [time TEST4_TIMESTAMP, ok c (reg s4 cert4 URL), has s4 true]

/-- `add_and_remove_enclave_works`, teerex/src/tests/test_cases.rs L375-396. -/
def add_and_remove_enclave_works : List Step := [time TEST4_TIMESTAMP, ok c (reg s4 cert4 URL), has s4 true,
  time (TEST4_TIMESTAMP + 172800000 + 1), ok c (.ext (.signed alice) (.unregisterSovereignEnclave s4)), has s4 false]

/-- `add_enclave_without_timestamp_fails`, teerex/src/tests/test_cases.rs L399-412. -/
def add_enclave_without_timestamp_fails : List Step := [time 0, fails (reg s4 cert4 URL), has s4 false]

/-- `list_enclaves_works`, teerex/src/tests/test_cases.rs L415-439. -/
def list_enclaves_works : List Step := [time TEST4_TIMESTAMP, ok c (reg s4 cert4 URL), has s4 true, entry s4 e4]

/-- `update_enclave_url_works`, teerex/src/tests/test_cases.rs L490-526. -/
def update_enclave_url_works : List Step := [time TEST4_TIMESTAMP, ok c (reg s4 cert4 URL),
  check fun s => (s.tx.sovereign s4).bind (·.url) = some URL, ok c (reg s4 cert4 url2),
  check fun s => (s.tx.sovereign s4).bind (·.url) = some url2]

/-- `debug_mode_enclave_attest_works_when_sgx_debug_mode_is_allowed`, teerex/src/tests/test_cases.rs L529-555. -/
def debug_mode_enclave_attest_works_when_sgx_debug_mode_is_allowed : List Step :=
  [time TEST4_TIMESTAMP, ok c (reg s4 cert4 URL), has s4 true, entry s4 e4]

/-- `debug_mode_enclave_attest_fails_when_sgx_debug_mode_not_allowed`, teerex/src/tests/test_cases.rs L587-603. -/
def debug_mode_enclave_attest_fails_when_sgx_debug_mode_not_allowed : List Step :=
  [time TEST4_TIMESTAMP, noop c (reg s4 cert4 URL) .sgxModeIsNotAllowed, has s4 false]

/-- `verify_ias_report_should_work`, teerex/sgx-verify/src/tests.rs L34-43. -/
def verify_ias_report_should_work : Bool :=
  match verifyIasReport Conf.ext cert4 with
  | .ok r => r.mrEnclave = TEST4_MRENCLAVE && r.timestamp = TEST4_TIMESTAMP && r.reportData.val.take 32 = signer4 &&
      r.status = .configurationNeeded && r.buildMode = .debug
  | .error _ => false

/-- All tests with certificate 4 pass. -/
example : ([add_enclave_works, add_and_remove_enclave_works, add_enclave_without_timestamp_fails,
      list_enclaves_works, update_enclave_url_works,
      debug_mode_enclave_attest_works_when_sgx_debug_mode_is_allowed].all (play mock) &&
    play production debug_mode_enclave_attest_fails_when_sgx_debug_mode_not_allowed &&
    verify_ias_report_should_work) = true := by decide +kernel

/-- `register_ias_enclave_with_different_signer_fails`, teerex/src/tests/test_cases.rs L442-456. -/
example : play mock [time TEST7_TIMESTAMP, noop c (reg s7 cert5 URL) .senderIsNotAttestedEnclave] = true := by
  decide +kernel

/-- `register_ias_enclave_with_to_old_attestation_report_fails`, teerex/src/tests/test_cases.rs L459-473. -/
def register_ias_enclave_with_to_old_attestation_report_fails : List Step :=
  [time (TEST7_TIMESTAMP + DAY + 1), noop c (reg s7 cert7 URL) .remoteAttestationIsTooOld]

/-- `register_ias_enclave_with_almost_too_old_report_works`, teerex/src/tests/test_cases.rs L476-487. -/
def register_ias_enclave_with_almost_too_old_report_works : List Step :=
  [time (TEST7_TIMESTAMP + DAY - 1), ok c (reg s7 cert7 URL)]

example : [register_ias_enclave_with_to_old_attestation_report_fails,
    register_ias_enclave_with_almost_too_old_report_works].all (play mock) = true := by decide +kernel

/-- `production_mode_enclave_attest_works_when_sgx_debug_mode_is_allowed` and `…_not_allowed`,
teerex/src/tests/test_cases.rs L562-588, L608-633. -/
def production_mode_enclave_attest_works : List Step :=
  [time TEST8_TIMESTAMP, ok c (reg s8 cert8 URL), has s8 true, entry s8 e8]

example : [mock, production].all (fun s => play s production_mode_enclave_attest_works) = true := by decide +kernel

/-- `verify_sgx_build_mode_works`, teerex/sgx-verify/src/tests.rs L101-110 (the half with certificate 8; the other half is
contained in `verify_ias_report_should_work`). -/
example : (match verifyIasReport Conf.ext cert8 with
    | .ok r => decide (r.buildMode = .production) | .error _ => false) = true := by decide +kernel

/-- `verify_zero_length_cert_returns_err`, teerex/sgx-verify/src/tests.rs L53-55. -/
example : (verifyIasReport Conf.ext []).isOk = false := by decide +kernel

/-- `verify_wrong_cert_is_err`, teerex/sgx-verify/src/tests.rs L58-61. -/
example : (verifyIasReport Conf.ext CERT_WRONG_PLATFORM_BLOB).isOk = false := by decide +kernel

/-- `verify_wrong_fake_enclave_quote_is_err`, teerex/sgx-verify/src/tests.rs L64-67. -/
example : (verifyIasReport Conf.ext CERT_FAKE_QUOTE_STATUS).isOk = false := by decide +kernel

/-- `verify_wrong_sig_is_err`, teerex/sgx-verify/src/tests.rs L70-73. -/
example : (verifyIasReport Conf.ext CERT_WRONG_SIG).isOk = false := by decide +kernel

/-- `verify_short_cert_is_err`, teerex/sgx-verify/src/tests.rs L76-81. -/
example : (verifyIasReport Conf.ext CERT_TOO_SHORT1).isOk = false ∧
    (verifyIasReport Conf.ext CERT_TOO_SHORT2).isOk = false := by decide +kernel

/-- `fix_incorrect_handling_of_iterator`, teerex/sgx-verify/src/tests.rs L84-98. -/
example : (match verifyIasReport Conf.ext [
    224, 224, 224, 224, 224, 224, 224, 224, 235, 2, 0, 1, 5, 40, 0, 8, 255, 6, 8, 42, 134, 72,
    206, 61, 3, 1, 7, 0, 2, 183, 64, 48, 48, 0, 1, 10, 23, 3, 6, 9, 96, 134, 72, 1, 134, 248,
    66, 1, 13, 0, 0, 0, 13, 1, 14, 177] with
    | .ok _ => false | .error e => decide (e = .netscapeDecodingError)) = true := by decide +kernel

/-- `set_security_flags_works`, teerex/src/tests/test_cases.rs L68-79. -/
example : play mock [ok c (.ext .root (.setSecurityFlags true false)),
    check fun s => s.tx.allowSkip = true && s.tx.allowDebug = false,
    check fun s => s.tx.events.contains (.updatedSecurityFlags true false)] = true := by decide +kernel

/-- `set_security_flags_as_non_root_fails`, teerex/src/tests/test_cases.rs L82-87. -/
example : play mock [fails (.ext (.signed alice) (.setSecurityFlags true false))] = true := by decide +kernel

end Verif.Conf.Ias
