import Verif.Conformance.DcapData
import Verif.Conformance.Ias

/-!
# The DCAP tests of teerex/src/tests/test_cases.rs and teerex/sgx-verify/src/tests.rs on the model

Real quotes, collateral and certificate chains, checked with the executable external functions. Tests which use the
same data are grouped, because the kernel then checks the data only once. Not transliterated:
`parse_pck_crl` (demonstration code for a function which does not exist) and the lengths of
`list_sovereign_enclaves()`/`list_proxied_enclaves()` (storage maps are functions in the model).
-/

namespace Verif.Conf.Dcap

open Data Ias

/-- `TEST_VALID_COLLATERAL_TIMESTAMP`, teerex/sgx-verify/src/test_data.rs L118. -/
def NOW : Nat := 1671606747000
def PERIOD : Nat := 172800000
/-- `TEST1_DCAP_QUOTE_SIGNER`, teerex/sgx-verify/src/test_data.rs L64-67. -/
def signer : AccountId := acc [
  65, 89, 193, 118, 86, 172, 17, 149, 206, 160, 174, 75, 219, 151, 51, 235, 110, 135, 20, 55,
  147, 162, 106, 110, 143, 207, 57, 64, 67, 63, 203, 95]
def mrenclave : Arr 32 := hex32 0x6f90120b5c1f03619112eac855e29d6e0be4f35b2902aa169affff7719277ebc
def fmspc : Fmspc := (Arr.ofBytes? 6 [0x00, 0x90, 0x6E, 0xA1, 0x00, 0x00]).getD (Arr.zero 6)

/-- `register_test_quoting_enclave`, teerex/src/test_helpers.rs L30-45. -/
def regQe : Op := .ext (.signed alice) (.registerQuotingEnclave quotingEnclave quotingEnclaveSig qeChain)
/-- `register_test_tcb_info`, teerex/src/test_helpers.rs L50-65. -/
def regTcb : Op := .ext (.signed alice) (.registerTcbInfo tcbInfo tcbInfoSig tcbChain)
def regDcap (a : AccountId) (url : Option Bytes) (proxied : Bool) : Op :=
  .ext (.signed a) (.registerSgxEnclave quote1 url (.dcap proxied))
def regSkip (a : AccountId) (proof : Bytes) (url : Option Bytes) (proxied : Bool) : Op :=
  .ext (.signed a) (.registerSgxEnclave proof url (.skip proxied))
def unreg (a : AccountId) : Op := .ext (.signed alice) (.unregisterSovereignEnclave a)
def unregProxied (a : EnclaveInstanceAddress) : Op := .ext (.signed alice) (.unregisterProxiedEnclave a)
def instance_ (s : Arr 32) : EnclaveInstanceAddress where
  fingerprint := mrenclave
  registrar := alice
  signer := (AnySigner.from32 s).getD (.opaque [])
def hasProxied (a : EnclaveInstanceAddress) (b : Bool) : Step := check fun s => (s.tx.proxied a).isSome = b
def collateral : List Step := [time NOW, ok c regQe, ok c regTcb]

/-- `add_and_remove_dcap_enclave_works`, teerex/src/tests/test_cases.rs L90-118. -/
def add_and_remove_dcap_enclave_works : List Step := collateral ++ [ok c (regDcap signer (some URL) false),
  has signer true, check fun s => (s.tx.sovereign signer).map (·.timestamp) = some NOW,
  time (NOW + PERIOD + 1), ok c (unreg signer), has signer false]

/-- `add_and_remove_dcap_proxied_enclave_works`, teerex/src/tests/test_cases.rs L121-151. -/
def add_and_remove_dcap_proxied_enclave_works : List Step := collateral ++ [ok c (regDcap alice none true),
  hasProxied (instance_ signer) true, time (NOW + PERIOD + 1), ok c (unregProxied (instance_ signer)),
  hasProxied (instance_ signer) false]

/-- `unregister_active_sovereign_enclave_fails`, teerex/src/tests/test_cases.rs L252-281. -/
def unregister_active_sovereign_enclave_fails : List Step := collateral ++ [ok c (regDcap signer (some URL) false),
  has signer true, time (NOW + PERIOD / 2 + 1), noop c (unreg signer) .unregisterActiveEnclaveIsNotAllowed,
  has signer true]

/-- `unregister_active_proxied_enclave_fails`, teerex/src/tests/test_cases.rs L284-319. -/
def unregister_active_proxied_enclave_fails : List Step := collateral ++ [ok c (regDcap alice none true),
  hasProxied (instance_ signer) true, time (NOW + PERIOD / 2 + 1),
  noop c (unregProxied (instance_ signer)) .unregisterActiveEnclaveIsNotAllowed, hasProxied (instance_ signer) true]

/-- `register_quoting_enclave_works`, teerex/src/tests/test_cases.rs L322-337. -/
def register_quoting_enclave_works : List Step :=
  [check fun s => s.tx.qe.mrsigner = Arr.zero 32 && s.tx.qe.isvprodid = 0, time NOW, ok c regQe,
   check fun s => s.tx.qe.isvprodid = 1, check fun s => s.tx.events.contains (.sgxQuotingEnclaveRegistered s.tx.qe)]

/-- `register_tcb_info_works`, teerex/src/tests/test_cases.rs L340-356. -/
def register_tcb_info_works : List Step := [time NOW, ok c regTcb,
  check fun s => (s.tx.tcb fmspc).map (·.nextUpdate) = some 1681649132000,
  check fun s => match s.tx.tcb fmspc with
    | some i => s.tx.events.contains (.sgxTcbInfoRegistered fmspc i)
    | none => false]

example : [add_and_remove_dcap_enclave_works, add_and_remove_dcap_proxied_enclave_works,
    unregister_active_sovereign_enclave_fails, unregister_active_proxied_enclave_fails,
    register_quoting_enclave_works, register_tcb_info_works].all (play mock) = true := by decide +kernel

/-- `skip_attestation_add_sovereign_enclave_works_if_allowed`, teerex/src/tests/test_cases.rs L174-206. -/
example : play mock [time NOW, put fun s => { s with tx := { s.tx with allowSkip := true } },
    ok c (regSkip alice quote1 (some URL) false), has alice true,
    check fun s => (s.tx.sovereign alice).map (·.method) = some (.skip false),
    put fun s => { s with tx := { s.tx with allowSkip := false } },
    noop c (regSkip alice quote1 (some URL) false) .skippingAttestationIsNotAllowed] = true := by decide +kernel

/-- `skip_attestation_add_proxied_enclave_works_if_allowed`, teerex/src/tests/test_cases.rs L209-249. -/
example : play mock [time NOW, put fun s => { s with tx := { s.tx with allowSkip := true } },
    ok c (regSkip alice mrenclave.val none true), hasProxied (instance_ alice) true,
    check fun s => (s.tx.proxied (instance_ alice)).map (·.method) = some (.skip true),
    put fun s => { s with tx := { s.tx with allowSkip := false } },
    noop c (regSkip alice quote1 (some URL) false) .skippingAttestationIsNotAllowed] = true := by decide +kernel

/-- `decoding_dcap_quote_works`, teerex/sgx-verify/src/tests.rs L46-50. -/
example : (decodeDcapQuote quote2).isSome = true := by decide +kernel

/-- `outdated_tcb_status_is_reported_correctly`, teerex/src/tests/test_cases.rs L154-171. -/
example : ((ext.parseIdentity quotingEnclave).bind EnclaveIdentity.toQuotingEnclave).any (fun qe =>
    match verifyDcapQuote ext quote2 1693475073000 qe with
    | .ok (_, tcb, _) =>
      let onchain : SgxTcbInfoOnChain :=
        { issueDate := 1693476000000, nextUpdate := 1914399873000,
          tcbLevels := [{ cpusvn := (Arr.ofBytes? 16 [0x0C, 0x0C, 0x03, 0x03, 0xFF, 0xFF, 0, 0, 0, 0, 0, 0, 0, 0, 0,
                            0]).getD (Arr.zero 16), pcesvn := 13, tcbStatus := .outOfDate }] }
      decide (onchain.verifyExaminee tcb = some .groupOutOfDate)
    | .error _ => false) = true := by decide +kernel

/-- `decode_qe_authentication_data`, teerex/sgx-verify/src/tests.rs L113-120. -/
example : (decodeAuthData [0]).isNone ∧ (decodeAuthData [1]).isNone ∧
    (decodeAuthData [0, 0]).map (·.1.size) = some 0 ∧ (decodeAuthData [1, 0, 5]).map (·.1.size) = some 1 ∧
    (decodeAuthData [1, 0, 5]).map (·.1.data.headD 0) = some 5 := by decide +kernel

/-- `decode_qe_certification_data`, teerex/sgx-verify/src/tests.rs L123-131. -/
example : (decodeCertData [0]).isNone ∧ (decodeCertData [1, 0, 0, 0, 0]).isNone ∧
    (decodeCertData [0, 0, 0, 0, 0, 0]).map (·.1.size) = some 0 ∧
    (decodeCertData [0, 0, 1, 0, 0, 0, 5]).map (·.1.size) = some 1 ∧
    (decodeCertData [0, 0, 1, 0, 0, 0, 5]).map (·.1.data.headD 0) = some 5 ∧
    (decodeCertData [0, 0, 2, 0, 0, 0, 5]).isNone := by decide +kernel

/-! ### Writing JSON, needed to replay the tests which read signed collateral and write it again -/

/-- A decimal number with at least `n` digits; the first argument bounds the number of digits. -/
def decimalDigits : Nat → Nat → Nat → List Char
  | 0, _, _ => []
  | f + 1, n, v => (if v < 10 then List.replicate (n - 1) '0' else decimalDigits f (n - 1) (v / 10)) ++
      [Char.ofNat (48 + v % 10)]

/-- Text form of a time in milliseconds, as chrono writes a `DateTime<Utc>` without fractions of seconds. -/
def writeDate (t : Int) : String :=
  let secs := t.toNat / 1000
  let z := secs / 86400 + 719468
  let era := z / 146097
  let doe := z % 146097
  let yoe := (doe - doe / 1460 + doe / 36524 - doe / 146096) / 365
  let doy := doe - (365 * yoe + yoe / 4 - yoe / 100)
  let mp := (5 * doy + 2) / 153
  let d := doy - (153 * mp + 2) / 5 + 1
  let m := if mp < 10 then mp + 3 else mp - 9
  let y := yoe + era * 400 + (if m ≤ 2 then 1 else 0)
  let two (n : Nat) := decimalDigits 20 2 n
  String.ofList (decimalDigits 20 4 y ++ '-' :: two m ++ '-' :: two d ++ 'T' :: two (secs % 86400 / 3600) ++ ':' ::
    two (secs % 3600 / 60) ++ ':' :: two (secs % 60) ++ ['Z'])

mutual
/-- Compact JSON, as `serde_json::to_vec`. Strings with characters that need escapes are not treated. -/
def writeJson : Json → List Char
  | .null => ['n', 'u', 'l', 'l']
  | .bool b => if b then ['t', 'r', 'u', 'e'] else ['f', 'a', 'l', 's', 'e']
  | .int n => (if n < 0 then ['-'] else []) ++ decimalDigits 20 1 n.natAbs
  | .num => []
  | .str s _ => '"' :: s.toList ++ ['"']
  | .arr l => '[' :: writeItems l ++ [']']
  | .obj l => '{' :: writeMembers l ++ ['}']
def writeItems : List Json → List Char
  | [] => []
  | [j] => writeJson j
  | j :: l => writeJson j ++ ',' :: writeItems l
def writeMembers : List (String × Json) → List Char
  | [] => []
  | [(n, j)] => '"' :: n.toList ++ '"' :: ':' :: writeJson j
  | (n, j) :: l => '"' :: n.toList ++ '"' :: ':' :: writeJson j ++ ',' :: writeMembers l
end

/-- Members of `EnclaveIdentitySigned`/`TcbInfoSigned`, teerex/sgx-verify/src/collateral.rs L224-236. -/
def signed (text : Bytes) (name : String) : Option (Json × Bytes) := do
  match ← (← Conf.json text).fields [name, "signature"] with
  | [some j, some (.str s _)] => some (j, ← hexDecode (hexText s))
  | _ => none

/-- `deserialize_qe_identity_works`, teerex/sgx-verify/src/tests.rs L134-150. -/
example : (match extractCerts ext qeChain, signed qeIdentityJson "enclaveIdentity" with
    | leaf :: inter, some (j, sig) =>
      (verifyCertificateChain ext leaf inter NOW).isOk &&
      (EnclaveIdentity.ofJson parseDate j).any fun i =>
        match deserializeEnclaveIdentity ext ((writeJson (i.toJson writeDate)).map fun ch => UInt8.ofNat ch.toNat)
            sig leaf with
        | .ok e => e.isvprodid = 1 && e.tcbLevels.length = 5
        | .error _ => false
    | _, _ => false) = true := by decide +kernel

/-- `deserialize_tcb_info_works`, teerex/sgx-verify/src/tests.rs L153-169. -/
example : (match extractCerts ext tcbChain, signed tcbInfoJson "tcbInfo" with
    | leaf :: inter, some (j, sig) =>
      (verifyCertificateChain ext leaf inter NOW).isOk &&
      (TcbInfo.ofJson parseDate j).any fun i =>
        (deserializeTcbInfo ext ((writeJson (i.toJson writeDate)).map fun ch => UInt8.ofNat ch.toNat) sig leaf).isOk &&
        decide (i.fmspc = fmspc)
    | _, _ => false) = true := by decide +kernel

/-- `verify_tcb_info_signature`, teerex/sgx-verify/src/tests.rs L172-181. -/
example : (match ext.base64 qeIdentityCert, encodeAsDer oldTcbInfoSig with
    | some leaf, .ok sig => ext.certParses leaf && (verifySignature ext leaf oldTcbInfo sig .ecdsaP256Sha256).isOk
    | _, _ => false) = true := by decide +kernel

/-- `parse_pck_certificate`, teerex/sgx-verify/src/tests.rs L202-217. -/
example : (match ext.base64 quoteCert with
    | some der =>
      match getIntelExtension ext der with
      | .ok e => e.length == 453 &&
        (match getFmspc e with | .ok f => decide (f = fmspc) | .error _ => false) &&
        (match getCpusvn e with
          | .ok v => decide (v.val = unhex [(16, 0x11110204018007000000000000000000)]) | .error _ => false) &&
        (match getPcesvn e with | .ok v => decide (v = 0x000B) | .error _ => false)
      | .error _ => false
    | none => false) = true := by decide +kernel

/-- `index_equal_length_returns_err` and `safe_indexing_works`, teerex/sgx-verify/src/utils.rs L49-54; the indexing
function is part of `lengthFromRawData`. -/
example : lengthFromRawData [0, 1, 2, 3, 4, 5, 6] 7 = none ∧ lengthFromRawData [0, 1, 2, 3, 4, 5, 6] 0 = some (0, 0) ∧
    lengthFromRawData [0, 1, 2, 3, 4, 5, 6] 3 = some (3, 3) ∧ lengthFromRawData [0, 1, 2, 3, 4, 5, 6] 10 = none := by
  decide +kernel

/-- `tcb_full_is_valid`, primitives/teerex/src/lib.rs L406-431. -/
example :
    let v (n k : Nat) : TcbVersionStatus := ⟨(Arr.ofBytes? 16 (beBytes 16 n)).getD (Arr.zero 16), k, .upToDate⟩
    let reference := v 0x11110204018007000000000000000000 7
    reference.verifyExaminee reference = true ∧
    reference.verifyExaminee (v 0x11110204018007000000000000000000 7) = true ∧
    reference.verifyExaminee (v 0x21110204018007000000000000000001 7) = true ∧
    reference.verifyExaminee (v 0x10110204018007000000000000000000 6) = false ∧
    reference.verifyExaminee (v 0x11110204018007000000000000000000 6) = false := by decide +kernel

end Verif.Conf.Dcap
