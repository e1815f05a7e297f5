import Verif.Spec.Quote
import Verif.Model.Runtime

/-!
# Specification vocabulary for teerex
-/

namespace Verif

/-- A TCB level is dominated by a platform: none of its 17 SVNs exceeds the platform's. -/
def Dominated (level platform : TcbVersionStatus) : Prop :=
  (∀ i (h : i < 16), level.cpusvn.val[i]'(by rw [level.cpusvn.property]; exact h) ≤
    platform.cpusvn.val[i]'(by rw [platform.cpusvn.property]; exact h)) ∧ level.pcesvn ≤ platform.pcesvn

/-- The on-chain status for each TCB status. -/
def statusTable : List (TcbStatus × SgxStatus) :=
  [(.unknown, .invalid), (.upToDate, .ok), (.swHardeningNeeded, .ok),
   (.configurationAndSWHardeningNeeded, .configurationNeeded), (.outOfDate, .groupOutOfDate),
   (.outOfDateConfigurationNeeded, .groupOutOfDate), (.revoked, .groupRevoked)]

/-- `st` is the status of the first TCB level, in the stored order, that is dominated by the platform. -/
def FirstDominated (info : SgxTcbInfoOnChain) (platform : TcbVersionStatus) (st : SgxStatus) : Prop :=
  ∃ before level after, info.tcbLevels = before ++ level :: after ∧ Dominated level platform ∧
    (∀ l ∈ before, ¬ Dominated l platform) ∧ (level.tcbStatus, st) ∈ statusTable

/-- The Netscape comment in a certificate: the first occurrence of its object identifier, one tag byte, a
length (one byte up to 128, otherwise two bytes after a marker), and three parts separated by `|`: the report,
its signature and the signing certificate, the latter two base64 encoded. -/
def NetscapeIn (x : Ext) (der report sig cert : Bytes) : Prop :=
  ∃ pre post b64sig b64cert tag lenBytes,
    der = pre ++ nsCmtOid ++ [tag] ++ lenBytes ++ (report ++ [0x7C] ++ b64sig ++ [0x7C] ++ b64cert) ++ post ∧
    (∀ p q, der = p ++ nsCmtOid ++ q → pre.length ≤ p.length) ∧
    ((∃ l : UInt8, lenBytes = [l] ∧ l.toNat ≤ 0x80 ∧
        (report ++ [0x7C] ++ b64sig ++ [0x7C] ++ b64cert).length = l.toNat) ∨
     (∃ m h l : UInt8, lenBytes = [m, h, l] ∧ 0x80 < m.toNat ∧
        (report ++ [0x7C] ++ b64sig ++ [0x7C] ++ b64cert).length = h.toNat * 256 + l.toNat)) ∧
    0x7C ∉ report ∧ 0x7C ∉ b64sig ∧ 0x7C ∉ b64cert ∧ x.base64 b64sig = some sig ∧ x.base64 b64cert = some cert

/-- Everything that acceptance of an IAS report means. -/
structure AuthenticIas (x : Ext) (der : Bytes) (r : SgxVerifiedReport) : Prop where
  signed : ∃ report sig cert js ts secs st body quote, NetscapeIn x der report sig cert ∧
    x.certParses cert = true ∧ x.certVerifySig .rsaPkcs1Sha256 cert report sig = true ∧
    /- the certificate is checked at a fixed date in 2019, not at the current time -/
    x.iasCertValid cert 1573419050 = true ∧
    x.jsonReport report = some js ∧
    js.timestamp = some ts ∧ x.parseTime (ts ++ "+0000") = some secs ∧ (r.timestamp : Int) = secs * 1000 ∧
    js.quoteStatus = some st ∧ r.status = iasStatus st ∧
    js.quoteBody = some body ∧ x.base64 body.toUTF8.data.toList = some quote ∧ 432 ≤ quote.length ∧
    r.mrEnclave.val = sub quote (48 + 64) 32 ∧ r.mrSigner.val = sub quote (48 + 128) 32 ∧
    r.reportData.val = sub quote (48 + 320) 64 ∧
    (r.buildMode = .debug ↔ (leNat (sub quote (48 + 48) 8)).testBit 1 = true)

/-- The entry carries the contents of the verified report. -/
def FromReport (e : SgxEnclave) (r : SgxVerifiedReport) : Prop :=
  e.reportData = r.reportData ∧ e.mrEnclave = r.mrEnclave ∧ e.mrSigner = r.mrSigner ∧
    e.timestamp = r.timestamp ∧ e.buildMode = r.buildMode

/-- What an accepted registration by `a` with proof `proof` in state `s` established about the entry `e`. -/
def Attested (c : Cfg) (s : Chain) (a : AccountId) (proof : Bytes) (e : SgxEnclave) : Prop :=
  match e.method with
  | .ias => ∃ r, AuthenticIas c.ext proof r ∧ FromReport e r ∧ e.status = r.status ∧
      r.timestamp ≤ s.now ∧ s.now < r.timestamp + c.momentsPerDay
  | .dcap _ => ∃ f t r info, AuthenticQuote c.ext proof s.now s.tx.qe f t r ∧ FromReport e r ∧
      s.tx.tcb f = some info ∧ FirstDominated info t e.status
  | .skip _ => s.tx.allowSkip = true ∧ e.reportData.val = a.val ++ List.replicate 32 0 ∧
      (32 ≤ proof.length → e.mrEnclave.val = sub proof 0 32) ∧
      (proof.length < 32 → e.mrEnclave.val = List.replicate 32 0) ∧ e.mrSigner.val = List.replicate 32 0 ∧
      e.timestamp = s.now ∧ e.buildMode = .production ∧ e.status = .invalid

/-- No enclave is registered. -/
def NoEnclaves (s : Chain) : Prop := (∀ a, s.tx.sovereign a = none) ∧ ∀ p, s.tx.proxied p = none

/-- The parsed TCB info and how it was authenticated at time `now`. -/
def SignedTcbInfo (c : Cfg) (now : Nat) (data sig chain : Bytes) (f : Fmspc) (info : SgxTcbInfoOnChain) : Prop :=
  ∃ leaf i inter der p, extractCerts c.ext chain = leaf :: i :: inter ∧
    c.ext.certParses leaf = true ∧ c.ext.dcapChainValid leaf (i :: inter) (now / 1000) = true ∧
    encodeAsDer sig = .ok der ∧ c.ext.certVerifySig .ecdsaP256Sha256 leaf data der = true ∧
    c.ext.parseTcbInfo data = some p ∧ p.id = "SGX" ∧ p.version = 3 ∧
    p.issueDate < now ∧ (now : Int) < p.nextUpdate ∧
    f = p.fmspc ∧ (info.issueDate : Int) = p.issueDate ∧ (info.nextUpdate : Int) = p.nextUpdate ∧
    info.tcbLevels.length = p.tcbLevels.length ∧
    ∀ k (h : k < info.tcbLevels.length) (h' : k < p.tcbLevels.length),
      info.tcbLevels[k].cpusvn.val = p.tcbLevels[k].components.val.map (·.svn) ∧ info.tcbLevels[k].pcesvn = p.tcbLevels[k].pcesvn ∧
      info.tcbLevels[k].tcbStatus = p.tcbLevels[k].tcbStatus

/-- The parsed identity of the quoting enclave and how it was authenticated at time `now`. -/
def SignedIdentity (c : Cfg) (now : Nat) (data sig chain : Bytes) (q : SgxQuotingEnclave) : Prop :=
  ∃ leaf i inter der p, extractCerts c.ext chain = leaf :: i :: inter ∧
    c.ext.certParses leaf = true ∧ c.ext.dcapChainValid leaf (i :: inter) (now / 1000) = true ∧
    encodeAsDer sig = .ok der ∧ c.ext.certVerifySig .ecdsaP256Sha256 leaf data der = true ∧
    c.ext.parseIdentity data = some p ∧ p.id = "QE" ∧ p.version = 2 ∧
    p.issueDate < now ∧ (now : Int) < p.nextUpdate ∧
    (q.issueDate : Int) = p.issueDate ∧ (q.nextUpdate : Int) = p.nextUpdate ∧
    q.miscselect = p.miscselect ∧ q.miscselectMask = p.miscselectMask ∧ q.attributes = p.attributes ∧
    q.attributesMask = p.attributesMask ∧ q.mrsigner = p.mrsigner ∧ q.isvprodid = p.isvprodid ∧
    q.tcb = p.tcbLevels.map (·.isvsvn)

end Verif
