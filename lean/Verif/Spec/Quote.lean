import Verif.Model.SgxVerify

/-!
# Specification of DCAP quotes by byte offsets

An SGX report body is 384 bytes; a DCAP quote is header (48), body (384), length field (4), signature (64),
attestation key (64), QE report (384), QE report signature (64), sized authentication data, and sized
certification data. `sub raw off len` are the `len` bytes of `raw` at offset `off`.
-/

namespace Verif

/-- The report body found at offset `off` of `raw`. -/
structure ReportAt (raw : Bytes) (off : Nat) (r : SgxReportBody) : Prop where
  cpuSvn : r.cpuSvn.val = sub raw off 16
  miscSelect : r.miscSelect.val = sub raw (off + 16) 4
  reserved1 : r.reserved1.val = sub raw (off + 20) 12
  isvExtProdId : r.isvExtProdId.val = sub raw (off + 32) 16
  attrFlags : r.attrFlags = leNat (sub raw (off + 48) 8)
  attrXfrm : r.attrXfrm = leNat (sub raw (off + 56) 8)
  mrEnclave : r.mrEnclave.val = sub raw (off + 64) 32
  reserved2 : r.reserved2.val = sub raw (off + 96) 32
  mrSigner : r.mrSigner.val = sub raw (off + 128) 32
  reserved3 : r.reserved3.val = sub raw (off + 160) 32
  configId : r.configId.val = sub raw (off + 192) 64
  isvProdId : r.isvProdId = leNat (sub raw (off + 256) 2)
  isvSvn : r.isvSvn = leNat (sub raw (off + 258) 2)
  configSvn : r.configSvn = leNat (sub raw (off + 260) 2)
  reserved4 : r.reserved4.val = sub raw (off + 262) 42
  isvFamilyId : r.isvFamilyId.val = sub raw (off + 304) 16
  reportData : r.reportData.val = sub raw (off + 320) 64

/-- The report at offset `off` is that of a quoting enclave which matches the identity `o`: product id,
signer, masked MISCSELECT bytes, masked attribute flag bits, and at least one of the listed SVNs. -/
structure QeMatches (raw : Bytes) (off : Nat) (o : SgxQuotingEnclave) : Prop where
  prodId : leNat (sub raw (off + 256) 2) = o.isvprodid
  signer : sub raw (off + 128) 32 = o.mrsigner.val
  misc : ∀ i < 4, (raw.getD (off + 16 + i) 0 &&& o.miscselectMask.val.getD i 0) =
    (o.miscselect.val.getD i 0 &&& o.miscselectMask.val.getD i 0)
  flags : ∀ k < 64, ((leNat (sub raw (off + 48) 8)).testBit k && (leNat (o.attributesMask.val.take 8)).testBit k) =
    (leNat (o.attributes.val.take 8)).testBit k
  svn : ∃ v ∈ o.tcb, v ≤ leNat (sub raw (off + 258) 2)

/-- Size of the authentication data of a quote. -/
def authSize (raw : Bytes) : Nat := leNat (sub raw 1012 2)

/-- Size of the certification data of a quote. -/
def certSize (raw : Bytes) : Nat := leNat (sub raw (1014 + authSize raw + 2) 4)

/-- Everything that acceptance of a DCAP quote means, in terms of the bytes of the quote. `x` are the external
cryptographic functions, `time` is the verification time in milliseconds. -/
structure AuthenticQuote (x : Ext) (raw : Bytes) (time : Nat) (qe : SgxQuotingEnclave) (fmspc : Fmspc)
    (tcb : TcbVersionStatus) (r : SgxVerifiedReport) : Prop where
  /-- no byte is missing or left over -/
  length : raw.length = 1014 + authSize raw + 6 + certSize raw
  certBound : certSize raw ≤ 65000
  version : leNat (sub raw 0 2) = 3
  keyType : leNat (sub raw 2 2) = 2
  certType : leNat (sub raw (1014 + authSize raw) 2) = 5
  qeMatches : QeMatches raw 564 qe
  /-- the leaf certificate chains to the Intel root at verification time, carries the platform's FMSPC and
  TCB, and signed the QE report -/
  leaf : ∃ leaf i inter sig, extractCerts x (sub raw (1020 + authSize raw) (certSize raw)) = leaf :: i :: inter ∧
    x.certParses leaf = true ∧ x.dcapChainValid leaf (i :: inter) (time / 1000) = true ∧
    extractTcbInfo x leaf = .ok (fmspc, tcb) ∧
    encodeAsDer (sub raw 948 64) = .ok sig ∧
    x.certVerifySig .ecdsaP256Sha256 leaf (sub raw 564 384) sig = true
  /-- the QE report commits to the attestation key and to the first 32 bytes of authentication data -/
  keyHash : x.sha256 (sub raw 500 64 ++ sub raw 1014 32) = sub raw (564 + 320) 32
  /-- the attestation key signed header and report body -/
  bodySig : x.p256Verify (4 :: sub raw 500 64) (sub raw 0 432) (sub raw 436 64) = true
  mrEnclave : r.mrEnclave.val = sub raw (48 + 64) 32
  mrSigner : r.mrSigner.val = sub raw (48 + 128) 32
  reportData : r.reportData.val = sub raw (48 + 320) 64
  buildMode : r.buildMode = .debug ↔ (leNat (sub raw (48 + 48) 8)).testBit 1 = true
  timestamp : r.timestamp = time
  status : r.status = .invalid

end Verif
