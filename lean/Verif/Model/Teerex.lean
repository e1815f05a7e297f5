import Verif.Model.State

/-!
# Model of teerex/src/lib.rs
-/

namespace Verif

namespace Teerex

/-- `SGX_RA_PROOF_MAX_LEN`, teerex/src/lib.rs L43. -/
def maxProofLen : Nat := 5000
/-- `MAX_URL_LEN`, teerex/src/lib.rs L45. -/
def maxUrlLen : Nat := 256

/-- `deposit_event`, teerex/src/lib.rs L78. -/
def emit (s : Chain) (e : TxEvent) : Chain := { s with tx := { s.tx with events := e :: s.tx.events } }

/-- `From<sgx_verify::Error> for Error<T>`, teerex/src/lib.rs L174-222: one to one by name, so the error is
kept as it is; a panic stays a panic. -/
def sgxErr : SgxError → Err
  | .panic => .panic
  | e => .sgx e

/-- `ensure_timestamp_within_24_hours`, teerex/src/lib.rs L638-650. -/
def ensureTimestampWithin24Hours (c : Cfg) (s : Chain) (ts : Nat) : Except Err Unit :=
  if s.now < ts then .error .other
  else if s.now - ts < c.momentsPerDay then .ok ()
  else .error .remoteAttestationIsTooOld

/-- `<MrEnclave>::decode(&mut proof).unwrap_or_default()`, teerex/src/lib.rs L410. -/
def mrEnclaveOfProof (proof : Bytes) : MrEnclave :=
  match rdArr 32 proof with
  | some (m, _) => m
  | none => Arr.zero 32

/-- `add_enclave`, teerex/src/lib.rs L560-577. -/
def addEnclave (s : Chain) (sender : AccountId) (e : SgxEnclave) : Except Err Chain := do
  if e.proxied then
    let signer ← okOr e.instanceSigner .panic
    let address : EnclaveInstanceAddress :=
      { fingerprint := e.fingerprint, registrar := sender, signer := signer }
    .ok { s with tx := { s.tx with proxied := upd s.tx.proxied address (some e) } }
  else
    .ok { s with tx := { s.tx with sovereign := upd s.tx.sovereign sender (some e) } }

/-- `get_sovereign_enclave`, teerex/src/lib.rs L579-583. -/
def getSovereignEnclave (s : Chain) (a : AccountId) : Except Err SgxEnclave :=
  okOr (s.tx.sovereign a) .enclaveIsNotRegistered

/-- The `match attestation_method` of `register_sgx_enclave`, teerex/src/lib.rs L309-419. -/
def attest (c : Cfg) (s : Chain) (sender : AccountId) (proof : Bytes) :
    SgxAttestationMethod → Except Err SgxEnclave
  | .ias => do
    let report ← mapErr sgxErr (verifyIasReport c.ext proof)
    ensureTimestampWithin24Hours c s report.timestamp
    let e := { SgxEnclave.new report.reportData report.mrEnclave report.mrSigner report.timestamp
                 report.buildMode report.status with method := .ias }
    ensure (decide (sender = lower32 report.reportData)) .senderIsNotAttestedEnclave
    .ok e
  | .dcap proxied => do
    let (fmspc, tcbInfo, report) ← mapErr sgxErr (verifyDcapQuote c.ext proof s.now s.tx.qe)
    ensure (proxied || decide (sender = lower32 report.reportData)) .senderIsNotAttestedEnclave
    let reference ← okOr (s.tx.tcb fmspc) .missingTcbInfoForFmspc
    let status ← okOr (reference.verifyExaminee tcbInfo) .tcbInfoIsOutdated
    .ok { SgxEnclave.new report.reportData report.mrEnclave report.mrSigner report.timestamp
            report.buildMode status with method := .dcap proxied }
  | .skip proxied => do
    ensure s.tx.allowSkip .skippingAttestationIsNotAllowed
    let e := SgxEnclave.new (Arr.zero 64) (mrEnclaveOfProof proof) (Arr.zero 32) s.now .production .invalid
    let e ← okOr (e.withPubkey sender.val) .panic
    .ok { e with method := .skip proxied }

/-- `register_sgx_enclave`, teerex/src/lib.rs L295-446. -/
def registerSgxEnclave (c : Cfg) (s : Chain) (o : Origin) (proof : Bytes) (url : Option Bytes)
    (method : SgxAttestationMethod) : Except Err Chain := do
  let sender ← ensureSigned o
  ensure (decide (proof.length ≤ maxProofLen)) .raProofIsTooLong
  ensure (url.all fun u => decide (u.length ≤ maxUrlLen)) .enclaveUrlIsTooLong
  let e ← attest c s sender proof method
  ensure (s.tx.allowDebug || e.buildMode != .debug) .sgxModeIsNotAllowed
  let e := e.withUrl url
  let s ← addEnclave s sender e
  .ok (emit s (.addedSgxEnclave sender url (some e.status) e.method))

/-- `unregister_sovereign_enclave`, teerex/src/lib.rs L450-470. -/
def unregisterSovereignEnclave (c : Cfg) (s : Chain) (o : Origin) (a : AccountId) : Except Err Chain := do
  let _ ← ensureSigned o
  let e ← okOr (s.tx.sovereign a) .enclaveIsNotRegistered
  ensure (decide (e.timestamp < s.now - c.maxRenewal)) .unregisterActiveEnclaveIsNotAllowed
  let s := { s with tx := { s.tx with sovereign := upd s.tx.sovereign a none } }
  .ok (emit s (.removedSovereignEnclave a))

/-- `unregister_proxied_enclave`, teerex/src/lib.rs L474-494. -/
def unregisterProxiedEnclave (c : Cfg) (s : Chain) (o : Origin) (a : EnclaveInstanceAddress) :
    Except Err Chain := do
  let _ ← ensureSigned o
  let e ← okOr (s.tx.proxied a) .enclaveIsNotRegistered
  ensure (decide (e.timestamp < s.now - c.maxRenewal)) .unregisterActiveEnclaveIsNotAllowed
  let s := { s with tx := { s.tx with proxied := upd s.tx.proxied a none } }
  .ok (emit s (.removedProxiedEnclave a))

/-- The certificate part shared by `verify_quoting_enclave` and `verify_tcb_info`,
teerex/src/lib.rs L590-599, L617-627: the leaf certificate of the verified chain. -/
def verifyCollateralCerts (c : Cfg) (s : Chain) (chain : Bytes) : Except Err Bytes := do
  let certs := extractCerts c.ext chain
  ensure (decide (certs.length ≥ 2)) (.sgx .certificateChainIsTooShort)
  let leaf ← okOr certs.head? .panic
  ensure (c.ext.certParses leaf) (.sgx .leafCertificateParsingError)
  mapErr sgxErr (verifyCertificateChain c.ext leaf certs.tail s.now)
  .ok leaf

/-- `verification_time.try_into().unwrap()` from `u64` to `i64`, teerex/src/lib.rs L605, L631. -/
def timeToI64 (t : Nat) : Except Err Int := if t < 2 ^ 63 then .ok (t : Int) else .error .panic

/-- `verify_quoting_enclave`, teerex/src/lib.rs L585-610. -/
def verifyQuotingEnclave (c : Cfg) (s : Chain) (identity signature chain : Bytes) :
    Except Err SgxQuotingEnclave := do
  let leaf ← verifyCollateralCerts c s chain
  let identity ← mapErr sgxErr (deserializeEnclaveIdentity c.ext identity signature leaf)
  let t ← timeToI64 s.now
  if identity.isValid t then okOr identity.toQuotingEnclave .panic else .error .collateralIsInvalid

/-- `verify_tcb_info`, teerex/src/lib.rs L612-636. -/
def verifyTcbInfo (c : Cfg) (s : Chain) (info signature chain : Bytes) :
    Except Err (Fmspc × SgxTcbInfoOnChain) := do
  let leaf ← verifyCollateralCerts c s chain
  let info ← mapErr sgxErr (deserializeTcbInfo c.ext info signature leaf)
  let t ← timeToI64 s.now
  if info.isValid t then okOr info.toChain .panic else .error .collateralIsInvalid

/-- `register_quoting_enclave`, teerex/src/lib.rs L498-516. -/
def registerQuotingEnclave (c : Cfg) (s : Chain) (o : Origin) (identity signature chain : Bytes) :
    Except Err Chain := do
  let _ ← ensureSigned o
  let qe ← verifyQuotingEnclave c s identity signature chain
  let s := { s with tx := { s.tx with qe := qe } }
  .ok (emit s (.sgxQuotingEnclaveRegistered qe))

/-- `register_tcb_info`, teerex/src/lib.rs L520-536. -/
def registerTcbInfo (c : Cfg) (s : Chain) (o : Origin) (info signature chain : Bytes) : Except Err Chain := do
  let _ ← ensureSigned o
  let (fmspc, onChain) ← verifyTcbInfo c s info signature chain
  let s := { s with tx := { s.tx with tcb := upd s.tx.tcb fmspc (some onChain) } }
  .ok (emit s (.sgxTcbInfoRegistered fmspc onChain))

/-- `set_security_flags`, teerex/src/lib.rs L540-555. -/
def setSecurityFlags (s : Chain) (o : Origin) (allowSkip allowDebug : Bool) : Except Err Chain := do
  ensureRoot o
  let s := { s with tx := { s.tx with allowSkip := allowSkip, allowDebug := allowDebug } }
  .ok (emit s (.updatedSecurityFlags allowSkip allowDebug))

end Teerex

end Verif
