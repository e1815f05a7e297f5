import Verif.Model.Collateral

/-!
# Model of teerex/sgx-verify/src/{lib,utils,netscape_comment}.rs

Everything except the external crates (`Ext`) is transcribed on bytes. Indexing that would panic in Rust
yields `SgxError.panic`.
-/

namespace Verif

/-- `sgx_verify::Error`, teerex/sgx-verify/src/lib.rs L67-108, plus `panic` for the Rust panics. -/
inductive SgxError where
  | panic
  | caVerificationFailed
  | certificateChainIsInvalid
  | certificateChainIsTooShort
  | cpuSvnDecodingError
  | cpuSvnLengthMismatch
  | cpuSvnOidIsMissing
  | dcapKeyTypeMismatch
  | dcapQuoteDecodingError
  | dcapQuoteIsTooLong
  | dcapQuoteVersionMismatch
  | derEncodingError
  | enclaveIdentityDecodingError
  | enclaveIdentitySignatureIsInvalid
  | fmspcDecodingError
  | fmspcLengthMismatch
  | fmspcOidIsMissing
  | intelExtensionAmbiguity
  | intelExtensionCertificateDecodingError
  | isvEnclaveReportSignatureIsInvalid
  | keyLengthIsInvalid
  | leafCertificateParsingError
  | netscapeDecodingError
  | netscapeDerError
  | pceSvnDecodingError
  | pceSvnLengthMismatch
  | pceSvnOidIsMissing
  | pckCertFormatMismatch
  | publicKeyIsInvalid
  | qeHasRejectedEnclave
  | qeReportHashMismatch
  | quoteBodyDecodingError
  | quoteBodyIsInvalid
  | quoteBodyMissing
  | quoteStatusMissing
  | rsaSignatureIsInvalid
  | sgxReportParsingError
  | tcbInfoIsInvalid
  | timestampIsInvalid
  | timestampIsMissing
  deriving DecidableEq

/-- The signature algorithms passed to webpki, teerex/sgx-verify/src/lib.rs L489, L698. -/
inductive SigAlg where
  | ecdsaP256Sha256
  | rsaPkcs1Sha256
  deriving DecidableEq

/-- The three members of the IAS JSON report that are read, teerex/sgx-verify/src/lib.rs L716, L734, L747:
`some` iff the member exists and is a string. -/
structure IasJson where
  timestamp : Option String
  quoteStatus : Option String
  quoteBody : Option String

/-- External functions used by sgx-verify. They are arbitrary: every theorem quantifies over all of them.
* `sha256`: `ring::digest` (L641)
* `certParses der`: `webpki::EndEntityCert::try_from` succeeds (L608, L692); a certificate is identified
  with its DER bytes
* `dcapChainValid leaf intermediates unixSeconds`: `verify_for_usage` against `DCAP_SERVER_ROOTS` (L542)
* `iasCertValid leaf unixSeconds`: `verify_for_usage` against `IAS_SERVER_ROOTS` (L810)
* `certVerifySig alg cert data sig`: `EndEntityCert::verify_signature` (L793)
* `p256Verify pubkey data sig`: `ring` ECDSA_P256_SHA256_FIXED (L657)
* `x509Extensions der`: (object identifier content bytes, value) of the extensions of a certificate, `none`
  if DER decoding fails (L848-857)
* `base64`: `base64::decode` on bytes (L528, L748, teerex/sgx-verify/src/netscape_comment.rs L58-61)
* `json`: the JSON syntax accepted by `serde_json::from_slice` (L711, L491, L509). Simplified: numbers that do not
  fit `f64` are accepted everywhere
* `parseDate`: text form of a `DateTime<Utc>` to milliseconds (chrono, teerex/sgx-verify/src/collateral.rs L51, L81, L93-94, L169-170)
* `parseTime`: `DateTime::parse_from_str(_, "%Y-%m-%dT%H:%M:%S%.f%z")` and `.timestamp()` in seconds (L719) -/
structure Ext where
  sha256 : Bytes → Bytes
  certParses : Bytes → Bool
  dcapChainValid : Bytes → List Bytes → Nat → Bool
  iasCertValid : Bytes → Nat → Bool
  certVerifySig : SigAlg → Bytes → Bytes → Bytes → Bool
  p256Verify : Bytes → Bytes → Bytes → Bool
  x509Extensions : Bytes → Option (List (Bytes × Bytes))
  base64 : Bytes → Option Bytes
  json : Bytes → Option Json
  parseTime : String → Option Int
  parseDate : String → Option Int

/-- `serde_json::from_slice::<Value>` and the three members read from it, teerex/sgx-verify/src/lib.rs L711-747. -/
def Ext.jsonReport (x : Ext) (raw : Bytes) : Option IasJson :=
  (x.json raw).map fun j =>
    { timestamp := j.textMember "timestamp", quoteStatus := j.textMember "isvEnclaveQuoteStatus",
      quoteBody := j.textMember "isvEnclaveQuoteBody" }

/-- `serde_json::from_slice::<EnclaveIdentity>`, teerex/sgx-verify/src/lib.rs L491. -/
def Ext.parseIdentity (x : Ext) (data : Bytes) : Option EnclaveIdentity :=
  (x.json data).bind (EnclaveIdentity.ofJson x.parseDate)

/-- `serde_json::from_slice::<TcbInfo>`, teerex/sgx-verify/src/lib.rs L509-515. -/
def Ext.parseTcbInfo (x : Ext) (data : Bytes) : Option TcbInfo :=
  (x.json data).bind (TcbInfo.ofJson x.parseDate)

/-! ### SCALE decoding (parity-scale-codec `Input for &[u8]`) -/

/-- `Input::read` (external, parity-scale-codec) of `n` bytes from a slice: fails if there are fewer. -/
def rd (n : Nat) (b : Bytes) : Option (Bytes × Bytes) :=
  if n ≤ b.length then some (b.take n, b.drop n) else none

/-- Decode of `[u8; n]` (external, parity-scale-codec). -/
def rdArr (n : Nat) (b : Bytes) : Option (Arr n × Bytes) :=
  if h : n ≤ b.length then some (⟨b.take n, by simp [h]⟩, b.drop n) else none

/-- Decode of an `n`-byte little endian integer (external, parity-scale-codec). -/
def rdLE (n : Nat) (b : Bytes) : Option (Nat × Bytes) :=
  if n ≤ b.length then some (leNat (b.take n), b.drop n) else none

/-- `SgxReportBody`, teerex/sgx-verify/src/lib.rs L234-303 (`SGXAttributes` L112-115 inlined). -/
structure SgxReportBody where
  cpuSvn : Arr 16
  miscSelect : Arr 4
  reserved1 : Arr 12
  isvExtProdId : Arr 16
  attrFlags : Nat
  attrXfrm : Nat
  mrEnclave : MrEnclave
  reserved2 : Arr 32
  mrSigner : MrSigner
  reserved3 : Arr 32
  configId : Arr 64
  isvProdId : Nat
  isvSvn : Nat
  configSvn : Nat
  reserved4 : Arr 42
  isvFamilyId : Arr 16
  reportData : SgxReportData
  deriving DecidableEq

/-- Derived `Decode for SgxReportBody`, teerex/sgx-verify/src/lib.rs L234-303. -/
def decodeReportBody (b : Bytes) : Option (SgxReportBody × Bytes) := do
  let (cpuSvn, b) ← rdArr 16 b
  let (miscSelect, b) ← rdArr 4 b
  let (reserved1, b) ← rdArr 12 b
  let (isvExtProdId, b) ← rdArr 16 b
  let (attrFlags, b) ← rdLE 8 b
  let (attrXfrm, b) ← rdLE 8 b
  let (mrEnclave, b) ← rdArr 32 b
  let (reserved2, b) ← rdArr 32 b
  let (mrSigner, b) ← rdArr 32 b
  let (reserved3, b) ← rdArr 32 b
  let (configId, b) ← rdArr 64 b
  let (isvProdId, b) ← rdLE 2 b
  let (isvSvn, b) ← rdLE 2 b
  let (configSvn, b) ← rdLE 2 b
  let (reserved4, b) ← rdArr 42 b
  let (isvFamilyId, b) ← rdArr 16 b
  let (reportData, b) ← rdArr 64 b
  some ({ cpuSvn, miscSelect, reserved1, isvExtProdId, attrFlags, attrXfrm, mrEnclave, reserved2, mrSigner,
          reserved3, configId, isvProdId, isvSvn, configSvn, reserved4, isvFamilyId, reportData }, b)

/-- `DcapQuoteHeader`, teerex/sgx-verify/src/lib.rs L128-152. -/
structure DcapQuoteHeader where
  version : Nat
  attestationKeyType : Nat
  reserved : Nat
  qeSvn : Nat
  pceSvn : Nat
  qeVendorId : Arr 16
  userData : Arr 20

/-- Derived `Decode for DcapQuoteHeader`, teerex/sgx-verify/src/lib.rs L128-152. -/
def decodeHeader (b : Bytes) : Option (DcapQuoteHeader × Bytes) := do
  let (version, b) ← rdLE 2 b
  let (attestationKeyType, b) ← rdLE 2 b
  let (reserved, b) ← rdLE 4 b
  let (qeSvn, b) ← rdLE 2 b
  let (pceSvn, b) ← rdLE 2 b
  let (qeVendorId, b) ← rdArr 16 b
  let (userData, b) ← rdArr 20 b
  some ({ version, attestationKeyType, reserved, qeSvn, pceSvn, qeVendorId, userData }, b)

/-- `QeAuthenticationData`, teerex/sgx-verify/src/lib.rs L168-173. -/
structure QeAuthenticationData where
  size : Nat
  data : Bytes

/-- `Decode for QeAuthenticationData`, teerex/sgx-verify/src/lib.rs L175-186. -/
def decodeAuthData (b : Bytes) : Option (QeAuthenticationData × Bytes) := do
  let (size, b) ← rdLE 2 b
  let (data, b) ← rd size b
  some ({ size, data }, b)

/-- `QeCertificationData`, teerex/sgx-verify/src/lib.rs L188-194. -/
structure QeCertificationData where
  dataType : Nat
  size : Nat
  data : Bytes

/-- `Decode for QeCertificationData`, teerex/sgx-verify/src/lib.rs L196-219. -/
def decodeCertData (b : Bytes) : Option (QeCertificationData × Bytes) := do
  let (dataType, b) ← rdLE 2 b
  let (size, b) ← rdLE 4 b
  if size > 65000 then none
  else
    let (data, b) ← rd size b
    some ({ dataType, size, data }, b)

/-- `DcapQuote` with `EcdsaQuoteSignature` inlined, teerex/sgx-verify/src/lib.rs L118-125, L157-166. -/
structure DcapQuote where
  header : DcapQuoteHeader
  body : SgxReportBody
  signatureDataLen : Nat
  isvReportSignature : Arr 64
  attestationKey : Arr 64
  qeReport : SgxReportBody
  qeReportSignature : Arr 64
  authData : QeAuthenticationData
  certData : QeCertificationData

/-- Derived `Decode for DcapQuote` / `EcdsaQuoteSignature`, teerex/sgx-verify/src/lib.rs L118-125, L157-166.
`signature_data_len` is read and ignored, as in the code. -/
def decodeDcapQuote (b : Bytes) : Option (DcapQuote × Bytes) := do
  let (header, b) ← decodeHeader b
  let (body, b) ← decodeReportBody b
  let (signatureDataLen, b) ← rdLE 4 b
  let (isvReportSignature, b) ← rdArr 64 b
  let (attestationKey, b) ← rdArr 64 b
  let (qeReport, b) ← decodeReportBody b
  let (qeReportSignature, b) ← rdArr 64 b
  let (authData, b) ← decodeAuthData b
  let (certData, b) ← decodeCertData b
  some ({ header, body, signatureDataLen, isvReportSignature, attestationKey, qeReport, qeReportSignature,
          authData, certData }, b)

/-- `SgxQuote` (IAS), teerex/sgx-verify/src/lib.rs L356-369: the 48 bytes before the report body are
decoded but not used. -/
def decodeSgxQuote (b : Bytes) : Option (SgxReportBody × Bytes) := do
  let (_version, b) ← rdLE 2 b
  let (_signType, b) ← rdLE 2 b
  let (_epidGroupId, b) ← rdLE 4 b
  let (_qeSvn, b) ← rdLE 2 b
  let (_pceSvn, b) ← rdLE 2 b
  let (_xeid, b) ← rdLE 4 b
  let (_basename, b) ← rdArr 32 b
  decodeReportBody b

/-! ### Checks on report bodies -/

/-- `SgxReportBody::sgx_build_mode` with `SGX_FLAGS_DEBUG = 2`, teerex/sgx-verify/src/lib.rs L226, L306-314. -/
def SgxReportBody.buildMode (r : SgxReportBody) : SgxBuildMode :=
  if r.attrFlags &&& 0x2 = 0x2 then .debug else .production

/-- `verify_misc_select_field`, teerex/sgx-verify/src/lib.rs L316-325. The indices are in range because all
three arrays have length 4. -/
def SgxReportBody.verifyMiscSelect (r : SgxReportBody) (o : SgxQuotingEnclave) : Bool :=
  (List.range 4).all fun i =>
    (r.miscSelect.val.getD i 0 &&& o.miscselectMask.val.getD i 0) ==
      (o.miscselect.val.getD i 0 &&& o.miscselectMask.val.getD i 0)

/-- `verify_attributes_field`, teerex/sgx-verify/src/lib.rs L327-334. -/
def SgxReportBody.verifyAttributes (r : SgxReportBody) (o : SgxQuotingEnclave) : Bool :=
  (r.attrFlags &&& o.flagsMask) == o.flags

/-- `SgxReportBody::verify`, teerex/sgx-verify/src/lib.rs L336-353. -/
def SgxReportBody.verify (r : SgxReportBody) (o : SgxQuotingEnclave) : Bool :=
  if r.isvProdId ≠ o.isvprodid ∨ r.mrSigner ≠ o.mrsigner then false
  else if !r.verifyMiscSelect o then false
  else if !r.verifyAttributes o then false
  else o.tcb.any fun t => decide (r.isvSvn ≥ t)

/-- `SgxVerifiedReport`, teerex/sgx-verify/src/lib.rs L371-379. -/
structure SgxVerifiedReport where
  mrEnclave : MrEnclave
  mrSigner : MrSigner
  reportData : SgxReportData
  status : SgxStatus
  timestamp : Nat
  buildMode : SgxBuildMode
  deriving DecidableEq

/-! ### DER helpers -/

/-- `der`'s `strip_leading_zeroes` used by `UIntRef::new` (external crate `der`): keeps the last byte. -/
def stripZeros : Bytes → Bytes
  | [] => []
  | [b] => [b]
  | b :: c :: bs => if b = 0 then stripZeros (c :: bs) else b :: c :: bs

/-- DER encoding of an unsigned integer given big endian (external: `UIntRef` of crate `der`, used in
teerex/sgx-verify/src/lib.rs L468-471): a zero byte is put in front if the
high bit is set. Lengths stay below 128 for 32-byte inputs. -/
def derUInt (b : Bytes) : Bytes :=
  let s := stripZeros b
  let c := if (s.headD 0) ≥ 0x80 then (0 : UInt8) :: s else s
  [(0x02 : UInt8), UInt8.ofNat c.length] ++ c

/-- `encode_as_der`, teerex/sgx-verify/src/lib.rs L462-478. The 72 byte buffer bound (L474) is
`DerEncodingError`. -/
def encodeAsDer (data : Bytes) : Except SgxError Bytes :=
  if data.length ≠ 64 then .error .keyLengthIsInvalid
  else
    let c := derUInt (data.take 32) ++ derUInt (data.drop 32)
    let out := [(0x30 : UInt8), UInt8.ofNat c.length] ++ c
    if out.length ≤ 72 then .ok out else .error .derEncodingError

/-- `windows(pat.len()).position(|w| w == pat)`, e.g. teerex/sgx-verify/src/lib.rs L870-873: index of the
first occurrence of a (non-empty) pattern. -/
def findSub (pat : Bytes) : Bytes → Option Nat
  | [] => if pat.isPrefixOf [] then some 0 else none
  | b :: bs => if pat.isPrefixOf (b :: bs) then some 0 else (findSub pat bs).map (· + 1)

/-- `length_from_raw_data`, teerex/sgx-verify/src/utils.rs L18-31: (length, new offset). -/
def lengthFromRawData (data : Bytes) (offset : Nat) : Option (Nat × Nat) := do
  let l0 ← data[offset]?
  if l0.toNat > 0x80 then
    let l1 ← data[offset + 1]?
    let l2 ← data[offset + 2]?
    some (l1.toNat * 0x100 + l2.toNat, offset + 2)
  else some (l0.toNat, offset)

/-- DER content bytes of "1.2.840.113741.1.13.1", teerex/sgx-verify/src/lib.rs L831-832. -/
def oidIntelExt : Bytes := [0x2A, 0x86, 0x48, 0x86, 0xF8, 0x4D, 0x01, 0x0D, 0x01]
/-- "1.2.840.113741.1.13.1.4", teerex/sgx-verify/src/lib.rs L833. -/
def oidFmspc : Bytes := oidIntelExt ++ [0x04]
/-- "1.2.840.113741.1.13.1.2.17", teerex/sgx-verify/src/lib.rs L834. -/
def oidPcesvn : Bytes := oidIntelExt ++ [0x02, 0x11]
/-- "1.2.840.113741.1.13.1.2.18", teerex/sgx-verify/src/lib.rs L835. -/
def oidCpusvn : Bytes := oidIntelExt ++ [0x02, 0x12]

/-- `get_intel_extension`, teerex/sgx-verify/src/lib.rs L847-866. -/
def getIntelExtension (x : Ext) (cert : Bytes) : Except SgxError Bytes := do
  let exts ← okOr (x.x509Extensions cert) .intelExtensionCertificateDecodingError
  match (exts.filter (fun e => e.1 == oidIntelExt)).map (·.2) with
  | [v] => .ok v
  | _ => .error .intelExtensionAmbiguity

/-- `get_fmspc`, teerex/sgx-verify/src/lib.rs L868-879. -/
def getFmspc (der : Bytes) : Except SgxError Fmspc := do
  let off ← okOr (findSub oidFmspc der) .fmspcOidIsMissing
  let data ← okOr (slice? der (off + 12) 6) .fmspcLengthMismatch
  okOr (Arr.ofBytes? 6 data) .fmspcDecodingError

/-- `get_cpusvn`, teerex/sgx-verify/src/lib.rs L881-893. -/
def getCpusvn (der : Bytes) : Except SgxError Cpusvn := do
  let off ← okOr (findSub oidCpusvn der) .cpuSvnOidIsMissing
  let data ← okOr (slice? der (off + 13) 16) .cpuSvnLengthMismatch
  okOr (Arr.ofBytes? 16 data) .cpuSvnDecodingError

/-- `get_pcesvn`, teerex/sgx-verify/src/lib.rs L895-915. The `try_into().unwrap()` on L913 is the explicit
panic. -/
def getPcesvn (der : Bytes) : Except SgxError Nat := do
  let off ← okOr (findSub oidPcesvn der) .pceSvnOidIsMissing
  let (len, off) ← okOr (lengthFromRawData der (off + oidPcesvn.length + 1)) .pceSvnDecodingError
  ensure (len == 1 || len == 2) .pceSvnLengthMismatch
  let data ← okOr (slice? der (off + 1) len) .pceSvnLengthMismatch
  match data with
  | [d] => .ok d.toNat
  | [d, e] => .ok (beNat [d, e])
  | _ => .error .panic

/-- `extract_tcb_info`, teerex/sgx-verify/src/lib.rs L837-845. -/
def extractTcbInfo (x : Ext) (cert : Bytes) : Except SgxError (Fmspc × TcbVersionStatus) := do
  let ext ← getIntelExtension x cert
  let fmspc ← getFmspc ext
  let cpusvn ← getCpusvn ext
  let pcesvn ← getPcesvn ext
  .ok (fmspc, { cpusvn := cpusvn, pcesvn := pcesvn, tcbStatus := .unknown })

/-! ### PEM handling -/

/-- Continuation byte test of UTF-8 (external, see `utf8LossyAux`). -/
def isCont (b : UInt8) : Bool := 0x80 ≤ b && b ≤ 0xBF

/-- `String::from_utf8_lossy` (Rust std, used in teerex/sgx-verify/src/lib.rs L523) as a list of code points;
every maximal invalid prefix gives one U+FFFD. The first argument bounds the recursion (number of bytes). -/
def utf8LossyAux : Nat → Bytes → List Nat
  | 0, _ => []
  | _, [] => []
  | n + 1, b0 :: r0 =>
    if b0 < 0x80 then b0.toNat :: utf8LossyAux n r0
    else if 0xC2 ≤ b0 && b0 ≤ 0xDF then
      match r0 with
      | b1 :: r1 =>
        if isCont b1 then ((b0.toNat % 32) * 64 + b1.toNat % 64) :: utf8LossyAux n r1
        else 0xFFFD :: utf8LossyAux n r0
      | [] => 0xFFFD :: utf8LossyAux n r0
    else if 0xE0 ≤ b0 && b0 ≤ 0xEF then
      match r0 with
      | b1 :: r1 =>
        if (b0 == 0xE0 && 0xA0 ≤ b1 && b1 ≤ 0xBF) || (0xE1 ≤ b0 && b0 ≤ 0xEC && isCont b1) ||
            (b0 == 0xED && 0x80 ≤ b1 && b1 ≤ 0x9F) || (0xEE ≤ b0 && isCont b1) then
          match r1 with
          | b2 :: r2 =>
            if isCont b2 then
              ((b0.toNat % 16) * 4096 + (b1.toNat % 64) * 64 + b2.toNat % 64) :: utf8LossyAux n r2
            else 0xFFFD :: utf8LossyAux n r1
          | [] => 0xFFFD :: utf8LossyAux n r1
        else 0xFFFD :: utf8LossyAux n r0
      | [] => 0xFFFD :: utf8LossyAux n r0
    else if 0xF0 ≤ b0 && b0 ≤ 0xF4 then
      match r0 with
      | b1 :: r1 =>
        if (b0 == 0xF0 && 0x90 ≤ b1 && b1 ≤ 0xBF) || (0xF1 ≤ b0 && b0 ≤ 0xF3 && isCont b1) ||
            (b0 == 0xF4 && 0x80 ≤ b1 && b1 ≤ 0x8F) then
          match r1 with
          | b2 :: r2 =>
            if isCont b2 then
              match r2 with
              | b3 :: r3 =>
                if isCont b3 then
                  ((b0.toNat % 8) * 262144 + (b1.toNat % 64) * 4096 + (b2.toNat % 64) * 64 + b3.toNat % 64)
                    :: utf8LossyAux n r3
                else 0xFFFD :: utf8LossyAux n r2
              | [] => 0xFFFD :: utf8LossyAux n r2
            else 0xFFFD :: utf8LossyAux n r1
          | [] => 0xFFFD :: utf8LossyAux n r1
        else 0xFFFD :: utf8LossyAux n r0
      | [] => 0xFFFD :: utf8LossyAux n r0
    else 0xFFFD :: utf8LossyAux n r0

/-- `String::from_utf8_lossy`, teerex/sgx-verify/src/lib.rs L523, see `utf8LossyAux`. -/
def utf8Lossy (b : Bytes) : List Nat := utf8LossyAux b.length b

/-- `str::split(pat)` (external, teerex/sgx-verify/src/lib.rs L527) for a non-empty pattern: leftmost, non-overlapping
matches. `skip` counts the characters of a match still to be skipped, `cur` is the current part in reverse. -/
def splitAux (pat : List Nat) : List Nat → Nat → List Nat → List (List Nat)
  | [], _, cur => [cur.reverse]
  | _ :: cs, skip + 1, cur => splitAux pat cs skip cur
  | c :: cs, 0, cur =>
    if pat.isPrefixOf (c :: cs) then cur.reverse :: splitAux pat cs (pat.length - 1) []
    else splitAux pat cs 0 (c :: cur)

/-- `str::split(pat)`, teerex/sgx-verify/src/lib.rs L527. -/
def splitStr (pat s : List Nat) : List (List Nat) := splitAux pat s 0 []

/-- `str::replace(pat, "")`, teerex/sgx-verify/src/lib.rs L524-525: the parts between the matches, joined. -/
def removeStr (pat s : List Nat) : List Nat := (splitStr pat s).flatten

/-- Code points of an ASCII literal, such as those in teerex/sgx-verify/src/lib.rs L524-527. -/
def cps (s : String) : List Nat := s.toList.map Char.toNat

/-- "-----BEGIN CERTIFICATE-----", teerex/sgx-verify/src/lib.rs L525. -/
def pemBegin : List Nat := cps "-----BEGIN CERTIFICATE-----"
/-- "-----END CERTIFICATE-----", teerex/sgx-verify/src/lib.rs L527. -/
def pemEnd : List Nat := cps "-----END CERTIFICATE-----"

/-- `base64::decode(&str)` as called by `extract_certs`, teerex/sgx-verify/src/lib.rs L528: the decoder works on the
UTF-8 bytes; bytes of non-ASCII characters are not in the base64 alphabet, so such strings never decode. -/
def base64Str (x : Ext) (s : List Nat) : Option Bytes :=
  if s.all (· < 128) then x.base64 (s.map UInt8.ofNat) else none

/-- `extract_certs`, teerex/sgx-verify/src/lib.rs L520-529. -/
def extractCerts (x : Ext) (chain : Bytes) : List Bytes :=
  let s := utf8Lossy chain
  let s := removeStr [10] s
  let s := removeStr pemBegin s
  ((splitStr pemEnd s).filter (fun p => !p.isEmpty)).filterMap (base64Str x)

/-! ### Verification -/

/-- `verify_signature`, teerex/sgx-verify/src/lib.rs L787-803. -/
def verifySignature (x : Ext) (cert data sig : Bytes) (alg : SigAlg) : Except SgxError Unit :=
  ensure (x.certVerifySig alg cert data sig) .rsaSignatureIsInvalid

/-- `verify_certificate_chain`, teerex/sgx-verify/src/lib.rs L533-560: the time is passed in seconds. -/
def verifyCertificateChain (x : Ext) (leaf : Bytes) (inter : List Bytes) (time : Nat) :
    Except SgxError Unit :=
  ensure (x.dcapChainValid leaf inter (time / 1000)) .certificateChainIsInvalid

/-- `verify_server_cert`, teerex/sgx-verify/src/lib.rs L805-827. -/
def verifyServerCert (x : Ext) (cert : Bytes) (time : Nat) : Except SgxError Unit :=
  ensure (x.iasCertValid cert time) .caVerificationFailed

/-- `deserialize_enclave_identity`, teerex/sgx-verify/src/lib.rs L483-492. -/
def deserializeEnclaveIdentity (x : Ext) (data sig cert : Bytes) : Except SgxError EnclaveIdentity := do
  let s ← encodeAsDer sig
  mapErr (fun _ => .enclaveIdentitySignatureIsInvalid) (verifySignature x cert data s .ecdsaP256Sha256)
  okOr (x.parseIdentity data) .enclaveIdentityDecodingError

/-- `deserialize_tcb_info`, teerex/sgx-verify/src/lib.rs L497-516. -/
def deserializeTcbInfo (x : Ext) (data sig cert : Bytes) : Except SgxError TcbInfo := do
  let s ← encodeAsDer sig
  verifySignature x cert data s .ecdsaP256Sha256
  okOr (x.parseTcbInfo data) .tcbInfoIsInvalid

/-- Slice indexing `&raw[off..off+len]` (teerex/sgx-verify/src/lib.rs L633-638, L648, L654), which panics when out of
bounds. -/
def index (raw : Bytes) (off len : Nat) : Except SgxError Bytes := okOr (slice? raw off len) .panic

/-- `extract_tcb_info_from_raw_dcap_quote`, teerex/sgx-verify/src/lib.rs L562-581. `certs[0]` panics on an
empty list. -/
def extractTcbInfoFromRawDcapQuote (x : Ext) (raw : Bytes) : Except SgxError (Fmspc × TcbVersionStatus) := do
  let (quote, _) ← okOr (decodeDcapQuote raw) .dcapQuoteDecodingError
  ensure (quote.header.version == 3) .dcapQuoteVersionMismatch
  ensure (quote.header.attestationKeyType == 2) .dcapKeyTypeMismatch
  ensure (quote.certData.dataType == 5) .pckCertFormatMismatch
  let cert ← okOr (extractCerts x quote.certData.data).head? .panic
  extractTcbInfo x cert

/-- `verify_dcap_quote`, teerex/sgx-verify/src/lib.rs L583-679. The offsets are those of L618-631:
attestation key 500, QE report 564, authentication data 1014. `certs[0]` and `certs[1..]` (L605-607) cannot
panic after the length check. -/
def verifyDcapQuote (x : Ext) (raw : Bytes) (time : Nat) (qe : SgxQuotingEnclave) :
    Except SgxError (Fmspc × TcbVersionStatus × SgxVerifiedReport) := do
  let (quote, rest) ← okOr (decodeDcapQuote raw) .dcapQuoteDecodingError
  ensure (quote.header.version == 3) .dcapQuoteVersionMismatch
  ensure (quote.header.attestationKeyType == 2) .dcapKeyTypeMismatch
  ensure (quote.certData.dataType == 5) .pckCertFormatMismatch
  ensure (quote.qeReport.verify qe) .qeHasRejectedEnclave
  let certs := extractCerts x quote.certData.data
  ensure (decide (certs.length ≥ 2)) .certificateChainIsTooShort
  let leaf ← okOr certs.head? .panic
  ensure (x.certParses leaf) .leafCertificateParsingError
  verifyCertificateChain x leaf certs.tail time
  let (fmspc, tcbInfo) ← extractTcbInfo x leaf
  let attestationKeyOffset := 48 + 384 + 4 + 64
  let authenticationDataOffset := attestationKeyOffset + 64 + 384 + 64 + 2
  let h1 ← index raw attestationKeyOffset 64
  let h2 ← index raw authenticationDataOffset 32
  ensure (x.sha256 (h1 ++ h2) == quote.qeReport.reportData.val.take 32) .qeReportHashMismatch
  let qeReportOffset := attestationKeyOffset + 64
  let qeReportSlice ← index raw qeReportOffset 384
  let pubKey := (0x04 : UInt8) :: quote.attestationKey.val
  let isvReportSlice ← index raw 0 (48 + 384)
  ensure (x.p256Verify pubKey isvReportSlice quote.isvReportSignature.val) .isvEnclaveReportSignatureIsInvalid
  let asn1Signature ← encodeAsDer quote.qeReportSignature.val
  verifySignature x leaf qeReportSlice asn1Signature .ecdsaP256Sha256
  ensure rest.isEmpty .dcapQuoteIsTooLong
  .ok (fmspc, tcbInfo,
    { mrEnclave := quote.body.mrEnclave, mrSigner := quote.body.mrSigner,
      reportData := quote.body.reportData, status := .invalid, timestamp := time,
      buildMode := quote.body.buildMode })

/-! ### IAS -/

/-- `NS_CMT_OID`, teerex/sgx-verify/src/netscape_comment.rs L28-29. -/
def nsCmtOid : Bytes := [0x06, 0x09, 0x60, 0x86, 0x48, 0x01, 0x86, 0xF8, 0x42, 0x01, 0x0D]

/-- `slice.split(|x| *x == sep)`, teerex/sgx-verify/src/netscape_comment.rs L54. -/
def splitByte (sep : UInt8) : Bytes → List Bytes
  | [] => [[]]
  | b :: bs =>
    if b = sep then [] :: splitByte sep bs
    else
      match splitByte sep bs with
      | p :: ps => (b :: p) :: ps
      | [] => [[b]]

/-- `NetscapeComment`, teerex/sgx-verify/src/netscape_comment.rs L22-26. -/
structure NetscapeComment where
  attestationRaw : Bytes
  sig : Bytes
  sigCert : Bytes

/-- `TryFrom<CertDer> for NetscapeComment`, teerex/sgx-verify/src/netscape_comment.rs L31-65. -/
def netscapeComment (x : Ext) (der : Bytes) : Option NetscapeComment := do
  let off ← findSub nsCmtOid der
  let (len, off) ← lengthFromRawData der (off + 12)
  let raw ← slice? der (off + 1) len
  match splitByte 0x7C raw with
  | [a, b, c] => do
    let sig ← x.base64 b
    let sigCert ← x.base64 c
    some { attestationRaw := a, sig := sig, sigCert := sigCert }
  | _ => none

/-- The status match of `parse_report`, teerex/sgx-verify/src/lib.rs L735-741. -/
def iasStatus (s : String) : SgxStatus :=
  if s = "OK" then .ok
  else if s = "GROUP_OUT_OF_DATE" then .groupOutOfDate
  else if s = "GROUP_REVOKED" then .groupRevoked
  else if s = "CONFIGURATION_NEEDED" then .configurationNeeded
  else .invalid

/-- `parse_report`, teerex/sgx-verify/src/lib.rs L709-784. `_ra_timestamp * 1000` cannot overflow `i64` for
dates chrono can represent; a negative result is `TimestampIsInvalid` (L728-729). -/
def parseReport (x : Ext) (raw : Bytes) : Except SgxError SgxVerifiedReport := do
  let report ← okOr (x.jsonReport raw) .sgxReportParsingError
  let time ← okOr report.timestamp .timestampIsMissing
  let secs ← okOr (x.parseTime (time ++ "+0000")) .timestampIsInvalid
  let ts ← okOr (millisToU64 (secs * 1000)) .timestampIsInvalid
  let status ← okOr report.quoteStatus .quoteStatusMissing
  let body ← okOr report.quoteBody .quoteBodyMissing
  let quoteRaw ← okOr (x.base64 body.toUTF8.data.toList) .quoteBodyDecodingError
  let (quote, _) ← okOr (decodeSgxQuote quoteRaw) .quoteBodyIsInvalid
  .ok { mrEnclave := quote.mrEnclave, mrSigner := quote.mrSigner, status := iasStatus status,
        reportData := quote.reportData, timestamp := ts, buildMode := quote.buildMode }

/-- The fixed time at which the IAS certificate is checked, teerex/sgx-verify/src/lib.rs L703. -/
def iasCertCheckTime : Nat := 1573419050

/-- `verify_ias_report`, teerex/sgx-verify/src/lib.rs L682-707. -/
def verifyIasReport (x : Ext) (der : Bytes) : Except SgxError SgxVerifiedReport := do
  let ns ← okOr (netscapeComment x der) .netscapeDecodingError
  ensure (x.certParses ns.sigCert) .netscapeDerError
  verifySignature x ns.sigCert ns.attestationRaw ns.sig .rsaPkcs1Sha256
  verifyServerCert x ns.sigCert iasCertCheckTime
  parseReport x ns.attestationRaw

end Verif
