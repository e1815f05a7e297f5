import Verif.Spec.Quote
import Verif.Spec.PckCert
import Verif.Spec.Base64
import Verif.Spec.Refusal
import Verif.Spec.Collateral

/-!
# Quotes, built from their parts

Specification only: what the maker of a quote puts together ("Intel SGX ECDSA QuoteLibReference DCAP API", appendix A.4).
-/

namespace Verif

open B64

/-- The parts of a quote of version 3 with an ECDSA P-256 key, with the chain of the platform's certificate as
certification data (type 5). -/
structure QuoteParts where
  /-- the header behind version and key type -/
  header : Arr 44
  /-- the report of the enclave -/
  body : Arr 384
  sigLen : Arr 4
  /-- by the attestation key, on header and body -/
  signature : Arr 64
  /-- the attestation key -/
  key : Arr 64
  /-- the report of the quoting enclave -/
  qeReport : Arr 384
  /-- by the key of the platform's certificate, on the report of the quoting enclave -/
  qeSignature : Arr 64
  /-- the authentication data; Intel's own quoting enclave puts 32 bytes there -/
  auth : Bytes
  certs : Bytes

/-- Version, key type, header and report: what the attestation key signs. -/
def QuoteParts.signed (q : QuoteParts) : Bytes := [3, 0, 2, 0] ++ q.header.val ++ q.body.val

/-- The quote. -/
def QuoteParts.bytes (q : QuoteParts) : Bytes :=
  q.signed ++ q.sigLen.val ++ q.signature.val ++ q.key.val ++ q.qeReport.val ++ q.qeSignature.val ++
    toLE 2 q.auth.length ++ q.auth ++ [5, 0] ++ toLE 4 q.certs.length ++ q.certs

/-- An ECDSA signature in its fixed-length form verifies: it does so in DER. -/
def EcdsaVerifies (x : Ext) (cert data : Bytes) (sig : Bytes) : Prop :=
  ∃ der, Der.IsSignature (beNat (sig.take 32)) (beNat (sig.drop 32)) der ∧ x.certVerifySig .ecdsaP256Sha256 cert data der = true

/-- The text `pem` is a chain of certificates from `leaf` to Intel's root, valid at time `now` (milliseconds). -/
def ChainText (x : Ext) (now : Nat) (pem leaf : Bytes) : Prop :=
  ∃ i inter chain tail, IsPem [10] chain (leaf :: i :: inter) ∧ (∀ c ∈ tail, c = 10 ∨ c = 0) ∧ pem = chain ++ tail ∧
    x.certParses leaf = true ∧ x.dcapChainValid leaf (i :: inter) (now / 1000) = true

/-- The quote was made on the platform with these data. -/
structure MadeOn (x : Ext) (now : Nat) (q : QuoteParts) (e : Der.PckExtension) : Prop where
  /-- certificates of the platform, with the key that signed the report of the quoting enclave -/
  platform : ∃ leaf, ChainText x now q.certs leaf ∧ IntelExtension x leaf e.der ∧ EcdsaVerifies x leaf q.qeReport.val q.qeSignature.val
  /-- the quoting enclave reported the attestation key -/
  key : x.sha256 (q.key.val ++ q.auth) = sub q.qeReport.val 320 32
  /-- which signed header and report -/
  signed : x.p256Verify (4 :: q.key.val) q.signed q.signature.val = true

/-- The platform is at least at that level: none of its versions is lower. -/
def Der.PckExtension.Reaches (e : Der.PckExtension) (l : TcbLevelDoc) : Prop :=
  (∀ (k : Nat) (v : Int), l.svns[k]? = some v → ∃ b, e.cpusvn.val[k]? = some b ∧ v ≤ b.toNat) ∧ l.pcesvn ≤ e.pcesvn

/-- What is recorded for the status of the level in Intel's document. -/
def recordedStatus : List (String × SgxStatus) :=
  [("UpToDate", .ok), ("SWHardeningNeeded", .ok), ("ConfigurationAndSWHardeningNeeded", .configurationNeeded),
   ("OutOfDate", .groupOutOfDate), ("OutOfDateConfigurationNeeded", .groupOutOfDate), ("Revoked", .groupRevoked)]

/-- The first level in the document that the platform reaches has this status. -/
def TcbInfoDoc.Judges (doc : TcbInfoDoc) (e : Der.PckExtension) (st : SgxStatus) : Prop :=
  ∃ before l after, doc.levels = before ++ l :: after ∧ e.Reaches l ∧ (∀ l' ∈ before, ¬ e.Reaches l') ∧ (l.status, st) ∈ recordedStatus

/-- The report of the quoting enclave matches the document: product, signer, and MISCSELECT and attributes as far as the masks
say, and the version is at least one of the listed ones. The texts are hexadecimal. -/
def IdentityDoc.Describes (doc : IdentityDoc) (report : Bytes) : Prop :=
  ∃ o : SgxQuotingEnclave, lowerCase doc.miscselect = hexOf o.miscselect.val ∧ lowerCase doc.miscselectMask = hexOf o.miscselectMask.val ∧
    lowerCase doc.attributes = hexOf o.attributes.val ∧ lowerCase doc.attributesMask = hexOf o.attributesMask.val ∧
    lowerCase doc.mrsigner = hexOf o.mrsigner.val ∧ (o.isvprodid : Int) = doc.isvprodid ∧
    o.tcb.map (fun n : Nat => (n : Int)) = doc.levels.map (·.1) ∧ QeMatches report 0 o

end Verif
