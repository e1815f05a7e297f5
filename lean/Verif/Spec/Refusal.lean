import Verif.Spec.Accept
import Verif.Spec.Der

/-!
# Specification: why calls are refused

For each call the conditions it needs, in order, each with the error that reports its violation. The conditions are in
terms of the storage that users can read and of the bytes they send; the functions of the pallets are not used.
`Err.panic` stands for a panic of the runtime.
-/

namespace Verif

/-- The error belongs to the first condition of the list that does not hold. -/
def FirstFailing {ε : Type} : List (ε × Prop) → ε → Prop
  | [], _ => False
  | (e', P) :: l, e => (¬P ∧ e = e') ∨ (P ∧ FirstFailing l e)

/-- All conditions of the list hold. -/
def AllHold {ε : Type} (l : List (ε × Prop)) : Prop := ∀ p ∈ l, p.2

/-- The call has to be signed. -/
def needSigned (o : Origin) : Err × Prop := (.badOrigin, ∃ a, o = .signed a)

/-- A condition on the signer. -/
def Signer (o : Origin) (P : AccountId → Prop) : Prop := ∀ a, o = .signed a → P a

/-- A transfer; none of the conditions matters if nothing is moved. -/
def needPay (c : Cfg) (s : Chain) (src dst : AccountId) (amount : Nat) : List (Err × Prop) :=
  let idle := amount = 0 ∨ src = dst
  [(.bal .fundsUnavailable, idle ∨ amount ≤ s.bal.free src),
   (.bal .frozen, idle ∨ ∀ id, s.bal.lock id src ≠ 0 →
      s.bal.lock id src + amount ≤ s.bal.free src ∧ c.ed + amount ≤ s.bal.free src),
   (.bal .overflow, idle ∨ s.bal.free dst + amount ≤ c.balMax),
   (.bal .belowMinimum, idle ∨ c.ed ≤ s.bal.free dst + amount)]

/-- To act for a shard: the signer is a registered enclave, it runs the code of the shard, it is listed or there is
room. -/
def needEnclaveOf (s : Chain) (o : Origin) (shard : ShardId) : List (Err × Prop) :=
  [needSigned o,
   (.enclaveIsNotRegistered, Signer o fun a => s.tx.sovereign a ≠ none),
   (.wrongFingerprintForShard, Signer o fun a => RightEnclave s shard a),
   (.tooManyEnclaves, Signer o fun a => HasPlace s shard a)]

/-! ### Attestation -/

/-- The object identifier of Intel's extension, 1.2.840.113741.1.13.1, and of three fields in it. -/
def extensionOid : Bytes := [0x2A, 0x86, 0x48, 0x86, 0xF8, 0x4D, 1, 13, 1]
def fmspcOid : Bytes := extensionOid ++ [4]
def pceSvnOid : Bytes := extensionOid ++ [2, 17]
def cpuSvnOid : Bytes := extensionOid ++ [2, 18]

/-- The Intel extension of a certificate, if it has exactly one. -/
def IntelExtension (x : Ext) (cert v : Bytes) : Prop :=
  ∃ l, x.x509Extensions cert = some l ∧ (l.filter fun e => e.1 = extensionOid) = [(extensionOid, v)]

/-- A field of the Intel extension: where its object identifier occurs first. -/
def FieldAt (x : Ext) (cert oid v : Bytes) (off : Nat) : Prop := IntelExtension x cert v ∧ Der.FirstAt oid v off

/-- The length and the place of the contents after a length byte at `pos`: one byte, or two bytes after a marker. -/
def LengthAt (v : Bytes) (pos len start : Nat) : Prop :=
  ∃ m, v[pos]? = some m ∧
    ((m.toNat ≤ 0x80 ∧ len = m.toNat ∧ start = pos + 1) ∨
     (0x80 < m.toNat ∧ start = pos + 3 ∧ ∃ h l, v[pos + 1]? = some h ∧ v[pos + 2]? = some l ∧
        len = h.toNat * 256 + l.toNat))

/-- The platform data in the leaf certificate of a quote. -/
def needPlatform (x : Ext) (leaf : Bytes) : List (SgxError × Prop) :=
  [(.intelExtensionCertificateDecodingError, x.x509Extensions leaf ≠ none),
   (.intelExtensionAmbiguity, ∃ v, IntelExtension x leaf v),
   (.fmspcOidIsMissing, ∃ v off, FieldAt x leaf fmspcOid v off),
   (.fmspcLengthMismatch, ∀ v off, FieldAt x leaf fmspcOid v off → off + 12 + 6 ≤ v.length),
   (.cpuSvnOidIsMissing, ∃ v off, FieldAt x leaf cpuSvnOid v off),
   (.cpuSvnLengthMismatch, ∀ v off, FieldAt x leaf cpuSvnOid v off → off + 13 + 16 ≤ v.length),
   (.pceSvnOidIsMissing, ∃ v off, FieldAt x leaf pceSvnOid v off),
   (.pceSvnDecodingError, ∀ v off, FieldAt x leaf pceSvnOid v off → ∃ len start, LengthAt v (off + 12) len start),
   (.pceSvnLengthMismatch, ∀ v off len start, FieldAt x leaf pceSvnOid v off → LengthAt v (off + 12) len start →
      (len = 1 ∨ len = 2) ∧ start + len ≤ v.length)]

/-- The certificates in a DCAP quote. -/
def quoteCerts (x : Ext) (raw : Bytes) : List Bytes := extractCerts x (sub raw (1020 + authSize raw) (certSize raw))

/-- A certificate chain that leads to Intel's root. -/
def needChain (x : Ext) (certs : List Bytes) (now : Nat) : List (SgxError × Prop) :=
  [(.certificateChainIsTooShort, 2 ≤ certs.length),
   (.leafCertificateParsingError, ∀ leaf rest, certs = leaf :: rest → x.certParses leaf = true),
   (.certificateChainIsInvalid, ∀ leaf rest, certs = leaf :: rest → x.dcapChainValid leaf rest (now / 1000) = true)]

/-- A DCAP quote. -/
def needQuote (x : Ext) (raw : Bytes) (now : Nat) (qe : SgxQuotingEnclave) : List (SgxError × Prop) :=
  [(.dcapQuoteDecodingError, 1020 + authSize raw + certSize raw ≤ raw.length ∧ certSize raw ≤ 65000),
   (.dcapQuoteVersionMismatch, leNat (sub raw 0 2) = 3),
   (.dcapKeyTypeMismatch, leNat (sub raw 2 2) = 2),
   (.pckCertFormatMismatch, leNat (sub raw (1014 + authSize raw) 2) = 5),
   (.qeHasRejectedEnclave, QeMatches raw 564 qe)] ++
  needChain x (quoteCerts x raw) now ++
  needPlatform x ((quoteCerts x raw).headD []) ++
  [(.qeReportHashMismatch, x.sha256 (sub raw 500 64 ++ sub raw 1014 32) = sub raw (564 + 320) 32),
   (.isvEnclaveReportSignatureIsInvalid, x.p256Verify (4 :: sub raw 500 64) (sub raw 0 432) (sub raw 436 64) = true),
   (.rsaSignatureIsInvalid, ∀ leaf rest sig, quoteCerts x raw = leaf :: rest → encodeAsDer (sub raw 948 64) = .ok sig →
      x.certVerifySig .ecdsaP256Sha256 leaf (sub raw 564 384) sig = true),
   (.dcapQuoteIsTooLong, raw.length = 1020 + authSize raw + certSize raw)]

/-- The conditions of the verification library, reported by the pallet under the same names. -/
def reported (l : List (SgxError × Prop)) : List (Err × Prop) := l.map fun p => (Err.sgx p.1, p.2)

/-- The report of the attestation service found in a certificate. -/
def ReportIn (x : Ext) (der report : Bytes) : Prop := ∃ sig cert, NetscapeIn x der report sig cert

/-- A condition on the members of that report. -/
def Members (x : Ext) (der : Bytes) (P : IasJson → Prop) : Prop :=
  ∀ report js, ReportIn x der report → x.jsonReport report = some js → P js

/-- A certificate with a report of the attestation service. -/
def needIas (x : Ext) (der : Bytes) : List (SgxError × Prop) :=
  [(.netscapeDecodingError, ∃ report, ReportIn x der report),
   (.netscapeDerError, ∀ report sig cert, NetscapeIn x der report sig cert → x.certParses cert = true),
   (.rsaSignatureIsInvalid, ∀ report sig cert, NetscapeIn x der report sig cert →
      x.certVerifySig .rsaPkcs1Sha256 cert report sig = true),
   (.caVerificationFailed, ∀ report sig cert, NetscapeIn x der report sig cert → x.iasCertValid cert 1573419050 = true),
   (.sgxReportParsingError, ∀ report, ReportIn x der report → x.jsonReport report ≠ none),
   (.timestampIsMissing, Members x der fun js => js.timestamp ≠ none),
   (.timestampIsInvalid, Members x der fun js => ∀ ts, js.timestamp = some ts →
      ∃ secs, x.parseTime (ts ++ "+0000") = some secs ∧ 0 ≤ secs),
   (.quoteStatusMissing, Members x der fun js => js.quoteStatus ≠ none),
   (.quoteBodyMissing, Members x der fun js => js.quoteBody ≠ none),
   (.quoteBodyDecodingError, Members x der fun js => ∀ b, js.quoteBody = some b → x.base64 b.toUTF8.data.toList ≠ none),
   (.quoteBodyIsInvalid, Members x der fun js => ∀ b quote, js.quoteBody = some b →
      x.base64 b.toUTF8.data.toList = some quote → 432 ≤ quote.length)]

/-- The proof of a registration, by method, including the check for debug enclaves. -/
def needAttestation (c : Cfg) (s : Chain) (o : Origin) (proof : Bytes) : SgxAttestationMethod → List (Err × Prop)
  | .ias => reported (needIas c.ext proof) ++
    [(.other, ∀ r, AuthenticIas c.ext proof r → r.timestamp ≤ s.now),
     (.remoteAttestationIsTooOld, ∀ r, AuthenticIas c.ext proof r → s.now < r.timestamp + c.momentsPerDay),
     (.senderIsNotAttestedEnclave, Signer o fun a => ∀ r, AuthenticIas c.ext proof r → r.reportData.val.take 32 = a.val),
     (.sgxModeIsNotAllowed, ∀ r, AuthenticIas c.ext proof r → s.tx.allowDebug = true ∨ r.buildMode ≠ .debug)]
  | .dcap proxied => reported (needQuote c.ext proof s.now s.tx.qe) ++
    [(.senderIsNotAttestedEnclave, proxied = true ∨ Signer o fun a => sub proof (48 + 320) 32 = a.val),
     (.missingTcbInfoForFmspc, ∀ f t r, AuthenticQuote c.ext proof s.now s.tx.qe f t r → s.tx.tcb f ≠ none),
     (.tcbInfoIsOutdated, ∀ f t r info, AuthenticQuote c.ext proof s.now s.tx.qe f t r → s.tx.tcb f = some info →
        ∃ st, FirstDominated info t st),
     (.sgxModeIsNotAllowed, s.tx.allowDebug = true ∨ (leNat (sub proof (48 + 48) 8)).testBit 1 = false)]
  | .skip _ => [(.skippingAttestationIsNotAllowed, s.tx.allowSkip = true)]

/-- Collateral signed by Intel; `bad` reports a wrong signature. -/
def needSignedDocument (c : Cfg) (s : Chain) (data sig chain : Bytes) (bad : SgxError) : List (SgxError × Prop) :=
  needChain c.ext (extractCerts c.ext chain) s.now ++
  [(.keyLengthIsInvalid, sig.length = 64),
   (bad, ∀ leaf rest der, extractCerts c.ext chain = leaf :: rest → encodeAsDer sig = .ok der →
      c.ext.certVerifySig .ecdsaP256Sha256 leaf data der = true)]

/-! ### Claims -/

/-- The payment of the claim of an address to an account. `P` holds for that address. -/
def needClaim (c : Cfg) (s : Chain) (P : EthAddr → Prop) (dest : AccountId) : List (Err × Prop) :=
  [(.signerHasNoClaim, ∀ g, P g → s.cl.claims g ≠ none),
   (.potUnderflow, ∀ g due, P g → s.cl.claims g = some due → due ≤ s.cl.total),
   (.vestedBalanceExists, ∀ g, P g → s.cl.vesting g ≠ none → s.bal.schedules dest = []),
   (.panic, ∀ g v, P g → s.cl.vesting g = some v → v.locked = 0 ∨ (v.perBlock ≠ 0 ∧ c.maxSchedules ≠ 0))]

/-! ### Sending messages -/

/-- The error that reports a failure to send a message. -/
def sendTable : SendError → Err
  | .notApplicable => .unreachableDest
  | .transport => .transport
  | .unroutable => .unroutable
  | .destinationUnsupported => .destinationUnsupported
  | .fees => .feesNotMet
  | .exceedsMaxMessageSize => .xcmSendError
  | .missingArgument => .xcmSendError

/-! ### The table -/

/-- The conditions of each call, in order. -/
def conditions (c : Cfg) (s : Chain) (o : Origin) : Call → List (Err × Prop)
  -- teerdays
  | .bond v => [needSigned o, (.alreadyBonded, Signer o fun a => s.td.bonds a = none), (.insufficientBond, c.ed ≤ v)]
  | .bondExtra v => [needSigned o, (.pendingUnlock, Signer o fun a => s.td.pending a = none), (.insufficientBond, c.ed ≤ v),
      (.noBond, Signer o fun a => s.td.bonds a ≠ none)]
  | .unbond v => [needSigned o, (.pendingUnlock, Signer o fun a => s.td.pending a = none), (.insufficientUnbond, c.ed ≤ v),
      (.noBond, Signer o fun a => s.td.bonds a ≠ none), (.panic, SumOk c c.momentMax (s.now + c.unlockPeriod))]
  | .updateOther who => [needSigned o, (.noBond, s.td.bonds who ≠ none)]
  | .withdrawUnbonded => [needSigned o, (.notUnlocking, Signer o fun a => s.td.pending a ≠ none),
      (.pendingUnlock, Signer o fun a => ∀ due amount, s.td.pending a = some (due, amount) → due ≤ s.now)]
  -- teerex
  | .registerSgxEnclave proof url m => [needSigned o, (.raProofIsTooLong, proof.length ≤ 5000),
      (.enclaveUrlIsTooLong, ∀ u, url = some u → u.length ≤ 256)] ++ needAttestation c s o proof m
  | .unregisterSovereignEnclave a => [needSigned o, (.enclaveIsNotRegistered, s.tx.sovereign a ≠ none),
      (.unregisterActiveEnclaveIsNotAllowed, ∀ e, s.tx.sovereign a = some e → e.timestamp + c.maxRenewal < s.now)]
  | .unregisterProxiedEnclave p => [needSigned o, (.enclaveIsNotRegistered, s.tx.proxied p ≠ none),
      (.unregisterActiveEnclaveIsNotAllowed, ∀ e, s.tx.proxied p = some e → e.timestamp + c.maxRenewal < s.now)]
  | .registerQuotingEnclave i g ch => needSigned o ::
      (reported (needSignedDocument c s i g ch .enclaveIdentitySignatureIsInvalid ++
        [(.enclaveIdentityDecodingError, c.ext.parseIdentity i ≠ none)]) ++
      [(.panic, s.now < 2 ^ 63),
       (.collateralIsInvalid, ∀ p, c.ext.parseIdentity i = some p → p.id = "QE" ∧ p.version = 2 ∧
          p.issueDate < s.now ∧ (s.now : Int) < p.nextUpdate),
       (.panic, ∀ p, c.ext.parseIdentity i = some p → 0 ≤ p.issueDate)])
  | .registerTcbInfo i g ch => needSigned o ::
      (reported (needSignedDocument c s i g ch .rsaSignatureIsInvalid ++
        [(.tcbInfoIsInvalid, c.ext.parseTcbInfo i ≠ none)]) ++
      [(.panic, s.now < 2 ^ 63),
       (.collateralIsInvalid, ∀ p, c.ext.parseTcbInfo i = some p → p.id = "SGX" ∧ p.version = 3 ∧
          p.issueDate < s.now ∧ (s.now : Int) < p.nextUpdate),
       (.panic, ∀ p, c.ext.parseTcbInfo i = some p → 0 ≤ p.issueDate)])
  | .setSecurityFlags _ _ => [(.badOrigin, o = .root)]
  -- enclave-bridge
  | .invoke _ _ => [needSigned o]
  | .confirmProcessedParentchainBlock shard _ _ _ => needEnclaveOf s o shard
  | .shieldFunds shard _ amount => needSigned o ::
      (match o with
       | .signed a => needPay c s a shard amount
       | _ => [])
  | .unshieldFunds shard ben amount h => needEnclaveOf s o shard ++
      (match s.br.executed h with
       | none => needPay c s shard ben amount
       | some n => [(.panic, SumOk c (2 ^ 64 - 1) (n + 1))])
  | .publishHash _ topics data => [needSigned o, (.enclaveIsNotRegistered, Signer o fun a => s.tx.sovereign a ≠ none),
      (.tooManyEnclaves, Signer o fun a => ∀ e, s.tx.sovereign a = some e → HasPlace s e.mrEnclave a),
      (.tooManyTopics, topics.length ≤ 5), (.dataTooLong, data.length ≤ 100)]
  | .updateShardConfig shard _ _ => [(.badOrigin, o = .root ∨ ∃ a, o = .signed a),
      (.enclaveIsNotRegistered, Signer o fun a => s.tx.sovereign a ≠ none),
      (.wrongFingerprintForShard, Signer o fun a => ∀ e old, s.tx.sovereign a = some e →
          configInEffect s shard s.block = some old → e.mrEnclave = old.fingerprint),
      (.tooManyEnclaves, Signer o fun a => HasPlace s shard a)]
  | .purgeEnclave shard _ => [(.badOrigin, o = .root), (.shardNotFound, s.br.status shard ≠ none)]
  -- sidechain
  | .confirmImportedSidechainBlock shard anc cand => needEnclaveOf s o shard ++
      (match s.sc.latest shard with
       | none => []
       | some known =>
         let Primary' := fun P : Prop => Signer o fun a => Primary s shard a → P
         [(.ancestorMissing, Primary' (anc ≠ none)),
          (.finalizationCandidateIsOutdated, Primary' (known.number < cand.number)),
          (.ancestorNumberMismatch, Primary' (∀ p, anc = some p → p.number = known.number)),
          (.ancestorHashMismatch, Primary' (∀ p, anc = some p → p.hash = known.hash))])
  -- teeracle
  | .addToWhitelist src fp => [(.badOrigin, o = .root), (.dataSourceStringTooLong, src.length ≤ 40),
      (.fingerprintAlreadyWhitelisted, fp ∉ s.orc.whitelist src),
      (.fingerprintWhitelistOverflow, (s.orc.whitelist src).length < c.maxWhitelisted)]
  | .removeFromWhitelist src fp => [(.badOrigin, o = .root), (.fingerprintNotWhitelisted, fp ∈ s.orc.whitelist src)]
  | .updateOracle name src blob => [needSigned o, (.enclaveIsNotRegistered, Signer o fun a => s.tx.sovereign a ≠ none),
      (.fingerprintNotWhitelisted, Signer o fun a => ∀ e, s.tx.sovereign a = some e → e.mrEnclave ∈ s.orc.whitelist src),
      (.oracleDataNameStringTooLong, name.length ≤ 40), (.dataSourceStringTooLong, src.length ≤ 40),
      (.oracleBlobTooBig, blob.length ≤ c.maxBlob)]
  | .updateExchangeRate src pair _ => [needSigned o,
      (.enclaveIsNotRegistered, Signer o fun a => s.tx.sovereign a ≠ none), (.tradingPairStringTooLong, pair.length ≤ 11),
      (.fingerprintNotWhitelisted, Signer o fun a => ∀ e, s.tx.sovereign a = some e → e.mrEnclave ∈ s.orc.whitelist src)]
  -- claims
  | .claims (.claim dest sig) => [(.badOrigin, o = .none),
      (.invalidEthereumSignature, ∃ g, SignedBy c g sig dest []),
      (.invalidStatement, ∀ g, SignedBy c g sig dest [] → s.cl.signing g = none)] ++
      needClaim c s (fun g => SignedBy c g sig dest []) dest
  | .claims (.claimAttest dest sig st) => [(.badOrigin, o = .none),
      (.invalidEthereumSignature, ∃ g, SignedBy c g sig dest st),
      (.invalidStatement, ∀ g, SignedBy c g sig dest st → StatementOk s g st)] ++
      needClaim c s (fun g => SignedBy c g sig dest st) dest
  | .claims (.attest st) => [needSigned o, (.senderHasNoClaim, Signer o fun a => s.cl.preclaims a ≠ none),
      (.invalidStatement, Signer o fun a => ∀ g, s.cl.preclaims a = some g → StatementOk s g st)] ++
      (match o with
       | .signed a => needClaim c s (fun g => s.cl.preclaims a = some g) a
       | _ => [])
  | .claims (.mintClaim _ v _ _) => [(.badOrigin, o = .root), (.panic, SumOk c c.balMax (s.cl.total + v))]
  | .claims (.moveClaim _ _ _) => [(.badOrigin, c.moveClaimOrigin o = true ∨ o = .root)]
  -- asset-registry
  | .registerReserveAsset id loc => [(.badOrigin, c.assetOrigin o = true), (.assetDoesNotExist, s.assets id ≠ none),
      (.assetAlreadyRegistered, s.ar.idLoc id = none), (.wrongLocation, IdentifiesAsset loc)]
  | .unregisterReserveAsset id => [(.badOrigin, c.assetOrigin o = true), (.assetIsNotRegistered, s.ar.idLoc id ≠ none)]
  -- xcm-transactor
  | .sendSwapUmp self other w fee => [(.badOrigin, c.swapOrigin o = true), (.swapIdsEqual, self ≠ other),
      (.invalidSwapIds, (self = c.shellParaId ∨ self = c.ksmParaId) ∧ (other = c.shellParaId ∨ other = c.ksmParaId))] ++
      [SendError.notApplicable, .transport, .unroutable, .destinationUnsupported, .fees, .exceedsMaxMessageSize,
        .missingArgument].map fun e => (sendTable e, c.sendXcm s.xt.sent ⟨1, []⟩
          (swapProgram c.ownParaId self other w fee) ≠ .error e)
  -- pallet balances
  | .balTransfer dst amount => needSigned o ::
      (match o with
       | .signed a => needPay c s a dst amount
       | _ => [])

/-! ### Panics -/

/-- A sum overflows and the build checks for that. -/
def Overflows (c : Cfg) (max sum : Nat) : Prop := max < sum ∧ c.overflowChecks = true

/-- A document signed by Intel. -/
def SignedDocument (c : Cfg) (s : Chain) (data sig chain : Bytes) : Prop :=
  ∃ leaf x rest der, extractCerts c.ext chain = leaf :: x :: rest ∧ c.ext.certParses leaf = true ∧
    c.ext.dcapChainValid leaf (x :: rest) (s.now / 1000) = true ∧ encodeAsDer sig = .ok der ∧
    c.ext.certVerifySig .ecdsaP256Sha256 leaf data der = true

/-- The claim is due to the account, with a vesting schedule that pallet vesting does not take. -/
def BadSchedule (c : Cfg) (s : Chain) (g : EthAddr) (dest : AccountId) : Prop :=
  ∃ due v, s.cl.claims g = some due ∧ due ≤ s.cl.total ∧ s.cl.vesting g = some v ∧ s.bal.schedules dest = [] ∧
    v.locked ≠ 0 ∧ (v.perBlock = 0 ∨ c.maxSchedules = 0)

/-- The cases in which a call panics. -/
def PanicCase (c : Cfg) (s : Chain) (o : Origin) : Call → Prop
  | .unbond v => ∃ a, o = .signed a ∧ s.td.pending a = none ∧ c.ed ≤ v ∧ s.td.bonds a ≠ none ∧
      Overflows c c.momentMax (s.now + c.unlockPeriod)
  | .registerQuotingEnclave i g ch => ∃ a p, o = .signed a ∧ SignedDocument c s i g ch ∧ c.ext.parseIdentity i = some p ∧
      (2 ^ 63 ≤ s.now ∨ (p.id = "QE" ∧ p.version = 2 ∧ p.issueDate < 0 ∧ (s.now : Int) < p.nextUpdate))
  | .registerTcbInfo i g ch => ∃ a p, o = .signed a ∧ SignedDocument c s i g ch ∧ c.ext.parseTcbInfo i = some p ∧
      (2 ^ 63 ≤ s.now ∨ (p.id = "SGX" ∧ p.version = 3 ∧ p.issueDate < 0 ∧ (s.now : Int) < p.nextUpdate))
  | .unshieldFunds shard _ _ h => ∃ a n, MayAct s o shard a ∧ s.br.executed h = some n ∧ Overflows c (2 ^ 64 - 1) (n + 1)
  | .claims (.claim dest sig) => ∃ g, o = .none ∧ SignedBy c g sig dest [] ∧ s.cl.signing g = none ∧ BadSchedule c s g dest
  | .claims (.claimAttest dest sig st) => ∃ g, o = .none ∧ SignedBy c g sig dest st ∧ StatementOk s g st ∧
      BadSchedule c s g dest
  | .claims (.attest st) => ∃ a g, o = .signed a ∧ s.cl.preclaims a = some g ∧ StatementOk s g st ∧ BadSchedule c s g a
  | .claims (.mintClaim _ v _ _) => o = .root ∧ Overflows c c.balMax (s.cl.total + v)
  | _ => False

end Verif
