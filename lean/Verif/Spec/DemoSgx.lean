import Verif.Spec.Demo

/-!
# A concrete configuration whose attestation checks accept, with concrete proofs

Used only in the examples and counterexamples.
-/

namespace Verif.Demo

/-- `n` bytes `b`. -/
def bytes (n : Nat) (b : UInt8) : Bytes := List.replicate n b

/-- A report body with flags byte `fl`, measurement 7.., signer 8.., and the given first half of the report
data. -/
def reportBody (fl : UInt8) (key : Bytes) : Bytes :=
  bytes 48 0 ++ fl :: bytes 15 0 ++ bytes 32 7 ++ bytes 32 0 ++ bytes 32 8 ++ bytes 96 0 ++ bytes 64 0 ++
    key ++ bytes 32 9

/-- The report of the quoting enclave: signer 5.., ISV SVN 3, report data zero. -/
def qeReport : Bytes :=
  bytes 128 0 ++ bytes 32 5 ++ bytes 96 0 ++ [1, 0] ++ [3, 0] ++ bytes 124 0

/-- Two "certificates". -/
def pem : Bytes := (cps "A-----END CERTIFICATE-----B").map UInt8.ofNat

/-- A DCAP quote whose report data starts with the given 32-byte key. -/
def quote (fl : UInt8) (key : Bytes) : Bytes :=
  [3, 0, 2, 0] ++ bytes 44 0 ++ reportBody fl key ++ bytes 4 0 ++ bytes 64 1 ++ bytes 64 2 ++ qeReport ++
    bytes 64 3 ++ [32, 0] ++ bytes 32 4 ++ [5, 0] ++ [27, 0, 0, 0] ++ pem

/-- The Intel extension of the PCK certificate: FMSPC 1..6, CPU SVN all 10, PCE SVN 7. -/
def intelExt : Bytes :=
  oidFmspc ++ [4, 6] ++ [1, 2, 3, 4, 5, 6] ++ oidCpusvn ++ [4, 16] ++ bytes 16 10 ++ oidPcesvn ++ [2, 1, 7]

def demoFmspc : Fmspc := ⟨[1, 2, 3, 4, 5, 6], rfl⟩

/-- Intel's identity of the quoting enclave; the issue date is given. -/
def identity (issued : Nat) : EnclaveIdentity where
  id := "QE"
  version := 2
  issueDate := issued
  nextUpdate := 6000
  tcbEvaluationDataNumber := 16
  miscselect := Arr.zero 4
  miscselectMask := Arr.fill 4 255
  attributes := Arr.zero 16
  attributesMask := Arr.fill 16 255
  mrsigner := Arr.fill 32 5
  isvprodid := 1
  tcbLevels := [⟨8, 0, .upToDate, none⟩, ⟨2, 0, .outOfDate, some ["INTEL-SA-00615"]⟩]

/-- 16 components with the same version. -/
def components (svn : UInt8) : { l : List TcbComponent // l.length = 16 } :=
  ⟨⟨svn, some "BIOS", some "Early Microcode Update"⟩ :: List.replicate 15 ⟨svn, none, none⟩, rfl⟩

/-- Intel's TCB info; the issue date is given. -/
def tcbInfo (issued : Nat) : TcbInfo where
  id := "SGX"
  version := 3
  issueDate := issued
  nextUpdate := 6000
  fmspc := demoFmspc
  pceId := "0000"
  tcbType := 0
  tcbEvaluationDataNumber := 16
  tcbLevels := [⟨components 11, 7, 0, .upToDate, none⟩, ⟨components 10, 7, 0, .outOfDate, some ["INTEL-SA-00586"]⟩,
    ⟨components 1, 1, 0, .revoked, none⟩]

/-- A text form for the dates used here. -/
def dateText (d : Int) : String :=
  if d = 0 then "0" else if d = 3 then "3" else if d = 4 then "4" else if d = 6000 then "6000" else "5000"

def readDate (s : String) : Option Int :=
  if s = "0" then some 0 else if s = "3" then some 3 else if s = "4" then some 4
  else if s = "5000" then some 5000 else if s = "6000" then some 6000 else none

/-- An IAS quote body with Alice's key. -/
def iasQuote : Bytes := bytes 48 0 ++ reportBody 0 alice.val

/-- "JSON texts": the first byte tells what it is, and the issue date of collateral is the length. -/
def readJson (d : Bytes) : Option Json :=
  match d.head? with
  | some 1 => some ((tcbInfo d.length).toJson dateText)
  | some 2 => some ((identity d.length).toJson dateText)
  | some 82 => some (.obj [("timestamp", .str "2024-01-01T00:00:00" false), ("isvEnclaveQuoteStatus", .str "OK" false),
      ("isvEnclaveQuoteBody", .str "body" false)])
  | _ => none

/-- Everything cryptographic answers "yes". -/
def okExt : Ext where
  sha256 := fun _ => bytes 32 0
  certParses := fun _ => true
  dcapChainValid := fun _ _ _ => true
  iasCertValid := fun _ _ => true
  certVerifySig := fun _ _ _ _ => true
  p256Verify := fun _ _ _ => true
  x509Extensions := fun _ => some [(oidIntelExt, intelExt)]
  base64 := fun _ => some iasQuote
  json := readJson
  parseTime := fun _ => some 4
  parseDate := readDate

def okCfg : Cfg := { cfg with ext := okExt }

/-- A certificate with an IAS report in its Netscape comment. -/
def iasProof : Bytes := nsCmtOid ++ [4, 5] ++ [82, 0x7C, 83, 0x7C, 67]

/-- Registration of collateral with the given issue date. -/
def regTcb (issued : Nat) : Op := .ext (.signed bob) (.registerTcbInfo (bytes issued 1) (bytes 64 1) pem)
def regQe (issued : Nat) : Op := .ext (.signed bob) (.registerQuotingEnclave (bytes issued 2) (bytes 64 1) pem)

/-- Collateral is registered; Alice's enclave registers with DCAP, Bob proxies the same quote. -/
def dcapHistory : List Op :=
  [regTcb 3, regQe 3, .ext (.signed alice) (.registerSgxEnclave (quote 0 alice.val) (some [104]) (.dcap false)),
   .ext (.signed bob) (.registerSgxEnclave (quote 0 alice.val) none (.dcap true))]

end Verif.Demo
