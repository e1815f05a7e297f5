import Verif.Model.SgxVerify
import Verif.Spec.Claims

/-!
# Specification vocabulary for text formats: hexadecimal text and the JSON documents of Intel
-/

namespace Verif

/-- ASCII text in lower case. -/
def lowerCase (b : Bytes) : Bytes := b.map fun x => if 65 ≤ x ∧ x ≤ 90 then x + 32 else x

/-- Text consisting of ASCII characters only. -/
def ofAscii (b : Bytes) : String := String.ofList (b.map fun x => Char.ofNat x.toNat)

/-! ### Documents -/

/-- A level of a TCB info document: versions of the components, PCE version, date, status. -/
structure TcbLevelDoc where
  svns : List Int
  pcesvn : Int
  date : String
  status : String

/-- The level in JSON, as published by Intel (without the optional members). -/
def TcbLevelDoc.json (l : TcbLevelDoc) : Json :=
  .obj [("tcb", .obj [("sgxtcbcomponents", .arr (l.svns.map fun n => .obj [("svn", .int n)])), ("pcesvn", .int l.pcesvn)]),
    ("tcbDate", .str l.date false), ("tcbStatus", .str l.status false)]

/-- A TCB info document. -/
structure TcbInfoDoc where
  id : String
  version : Int
  issueDate : String
  nextUpdate : String
  fmspc : Bytes
  pceId : String
  tcbType : Int
  evaluation : Int
  levels : List TcbLevelDoc

/-- The document in JSON. -/
def TcbInfoDoc.json (i : TcbInfoDoc) : Json :=
  .obj [("id", .str i.id false), ("version", .int i.version), ("issueDate", .str i.issueDate false),
    ("nextUpdate", .str i.nextUpdate false), ("fmspc", .str (ofAscii i.fmspc) false), ("pceId", .str i.pceId false),
    ("tcbType", .int i.tcbType), ("tcbEvaluationDataNumber", .int i.evaluation),
    ("tcbLevels", .arr (i.levels.map (·.json)))]

/-- The status values documented by Intel (PCS API, TCB info v3). -/
def intelStatuses : List String :=
  ["UpToDate", "SWHardeningNeeded", "ConfigurationNeeded", "ConfigurationAndSWHardeningNeeded", "OutOfDate",
    "OutOfDateConfigurationNeeded", "Revoked"]

/-- A document that an honest publisher could publish now: the numbers fit their types, the texts are well formed, the
update period covers `now`, and the status values are documented. -/
structure TcbInfoDoc.Valid (date : String → Option Int) (now : Nat) (i : TcbInfoDoc) : Prop where
  id : i.id = "SGX"
  version : i.version = 3
  issued : ∃ d, date i.issueDate = some d ∧ 0 ≤ d ∧ d < now
  next : ∃ d, date i.nextUpdate = some d ∧ now < d
  fmspc : (∀ x ∈ i.fmspc, x < 128) ∧ ∃ f : Fmspc, lowerCase i.fmspc = hexOf f.val
  tcbType : 0 ≤ i.tcbType ∧ i.tcbType < 2 ^ 16
  evaluation : 0 ≤ i.evaluation ∧ i.evaluation < 2 ^ 16
  levels : ∀ l ∈ i.levels, l.svns.length = 16 ∧ (∀ n ∈ l.svns, 0 ≤ n ∧ n < 2 ^ 8) ∧ 0 ≤ l.pcesvn ∧ l.pcesvn < 2 ^ 16 ∧
    (∃ d, date l.date = some d) ∧ l.status ∈ intelStatuses

/-- `data` is signed by a certificate that chains up to Intel's root at time `now`. -/
def SignedByIntel (x : Ext) (now : Nat) (data sig chain : Bytes) : Prop :=
  ∃ leaf i inter der, extractCerts x chain = leaf :: i :: inter ∧ x.certParses leaf = true ∧
    x.dcapChainValid leaf (i :: inter) (now / 1000) = true ∧ encodeAsDer sig = .ok der ∧
    x.certVerifySig .ecdsaP256Sha256 leaf data der = true

/-- Intel's names for the status values that the chain stores. -/
def statusNames : List (String × TcbStatus) :=
  [("Unknown", .unknown), ("UpToDate", .upToDate), ("SWHardeningNeeded", .swHardeningNeeded),
   ("ConfigurationAndSWHardeningNeeded", .configurationAndSWHardeningNeeded), ("OutOfDate", .outOfDate),
   ("OutOfDateConfigurationNeeded", .outOfDateConfigurationNeeded), ("Revoked", .revoked)]

/-- The entry stored for a document: same numbers, the status values with the names in the document. -/
def TcbInfoDoc.StoredAs (date : String → Option Int) (i : TcbInfoDoc) (f : Fmspc) (info : SgxTcbInfoOnChain) : Prop :=
  lowerCase i.fmspc = hexOf f.val ∧ date i.issueDate = some (info.issueDate : Int) ∧ date i.nextUpdate = some (info.nextUpdate : Int) ∧
  info.tcbLevels.length = i.levels.length ∧
  ∀ k (h : k < info.tcbLevels.length) (h' : k < i.levels.length),
    info.tcbLevels[k].cpusvn.val.map (fun b => (b.toNat : Int)) = i.levels[k].svns ∧
    (info.tcbLevels[k].pcesvn : Int) = i.levels[k].pcesvn ∧
    (i.levels[k].status, info.tcbLevels[k].tcbStatus) ∈ statusNames

/-- A document with the identity of the quoting enclave; a level is a version, a date and a status. -/
structure IdentityDoc where
  id : String
  version : Int
  issueDate : String
  nextUpdate : String
  evaluation : Int
  miscselect : Bytes
  miscselectMask : Bytes
  attributes : Bytes
  attributesMask : Bytes
  mrsigner : Bytes
  isvprodid : Int
  levels : List (Int × String × String)

/-- The document in JSON. -/
def IdentityDoc.json (i : IdentityDoc) : Json :=
  .obj [("id", .str i.id false), ("version", .int i.version), ("issueDate", .str i.issueDate false),
    ("nextUpdate", .str i.nextUpdate false), ("tcbEvaluationDataNumber", .int i.evaluation),
    ("miscselect", .str (ofAscii i.miscselect) false), ("miscselectMask", .str (ofAscii i.miscselectMask) false),
    ("attributes", .str (ofAscii i.attributes) false), ("attributesMask", .str (ofAscii i.attributesMask) false),
    ("mrsigner", .str (ofAscii i.mrsigner) false), ("isvprodid", .int i.isvprodid),
    ("tcbLevels", .arr (i.levels.map fun l => .obj [("tcb", .obj [("isvsvn", .int l.1)]), ("tcbDate", .str l.2.1 false),
      ("tcbStatus", .str l.2.2 false)]))]

/-- Hexadecimal text, in any letter case, of `n` bytes. -/
def HexOf (n : Nat) (t : Bytes) : Prop := ∃ a : Arr n, lowerCase t = hexOf a.val

/-- All hexadecimal members are ASCII text. -/
def IdentityDoc.Ascii (i : IdentityDoc) : Prop :=
  ∀ x ∈ i.miscselect ++ i.miscselectMask ++ i.attributes ++ i.attributesMask ++ i.mrsigner, x < 128

/-- An identity document that an honest publisher could publish now. The documented status values of a quoting enclave
are "UpToDate", "OutOfDate" and "Revoked". -/
structure IdentityDoc.Valid (date : String → Option Int) (now : Nat) (i : IdentityDoc) : Prop where
  id : i.id = "QE"
  version : i.version = 2
  issued : ∃ d, date i.issueDate = some d ∧ 0 ≤ d ∧ d < now
  next : ∃ d, date i.nextUpdate = some d ∧ now < d
  evaluation : 0 ≤ i.evaluation ∧ i.evaluation < 2 ^ 16
  ascii : i.Ascii
  miscselect : HexOf 4 i.miscselect
  miscselectMask : HexOf 4 i.miscselectMask
  attributes : HexOf 16 i.attributes
  attributesMask : HexOf 16 i.attributesMask
  mrsigner : HexOf 32 i.mrsigner
  isvprodid : 0 ≤ i.isvprodid ∧ i.isvprodid < 2 ^ 16
  levels : ∀ l ∈ i.levels, 0 ≤ l.1 ∧ l.1 < 2 ^ 16 ∧ (∃ d, date l.2.1 = some d) ∧ l.2.2 ∈ ["UpToDate", "OutOfDate", "Revoked"]

/-- The entry stored for an identity document. -/
def IdentityDoc.StoredAs (date : String → Option Int) (i : IdentityDoc) (q : SgxQuotingEnclave) : Prop :=
  date i.issueDate = some (q.issueDate : Int) ∧ date i.nextUpdate = some (q.nextUpdate : Int) ∧
  lowerCase i.miscselect = hexOf q.miscselect.val ∧ lowerCase i.miscselectMask = hexOf q.miscselectMask.val ∧
  lowerCase i.attributes = hexOf q.attributes.val ∧ lowerCase i.attributesMask = hexOf q.attributesMask.val ∧
  lowerCase i.mrsigner = hexOf q.mrsigner.val ∧ (q.isvprodid : Int) = i.isvprodid ∧
  q.tcb.map (fun n : Nat => (n : Int)) = i.levels.map (·.1)

/-- All member names that are looked at when collateral is read. -/
def collateralMembers : List String :=
  ["id", "version", "issueDate", "nextUpdate", "tcbEvaluationDataNumber", "miscselect", "miscselectMask", "attributes",
    "attributesMask", "mrsigner", "isvprodid", "tcbLevels", "fmspc", "pceId", "tcbType", "tcb", "tcbDate", "tcbStatus",
    "advisoryIDs", "sgxtcbcomponents", "pcesvn", "isvsvn", "svn", "category", "type"]

/-- The numbers of a TCB info fit their Rust types. -/
def TcbInfo.Fits (i : TcbInfo) : Prop :=
  i.version < 2 ^ 8 ∧ i.tcbType < 2 ^ 16 ∧ i.tcbEvaluationDataNumber < 2 ^ 16 ∧ ∀ l ∈ i.tcbLevels, l.pcesvn < 2 ^ 16

/-- The numbers of an identity fit their Rust types. -/
def EnclaveIdentity.Fits (i : EnclaveIdentity) : Prop :=
  i.version < 2 ^ 16 ∧ i.tcbEvaluationDataNumber < 2 ^ 16 ∧ i.isvprodid < 2 ^ 16 ∧ ∀ l ∈ i.tcbLevels, l.isvsvn < 2 ^ 16

/-- The members of an object with a given name. -/
def named (l : List (String × Json)) (name : String) : List Json := (l.filter fun m => m.1 = name).map (·.2)

/-- Two documents with the same contents: they differ at most in the order of the members of objects, and in members
with other names than the given ones (in objects that have at least one member with one of these names). -/
inductive SameContents (names : List String) : Json → Json → Prop where
  | refl (j : Json) : SameContents names j j
  | arr (l l' : List Json) (hl : l.length = l'.length)
      (h : ∀ (k : Nat) (a b : Json), l[k]? = some a → l'[k]? = some b → SameContents names a b) :
      SameContents names (.arr l) (.arr l')
  | obj (l l' : List (String × Json)) (known : ∃ n ∈ names, named l n ≠ [])
      (hl : ∀ n ∈ names, (named l n).length = (named l' n).length)
      (h : ∀ n ∈ names, ∀ (k : Nat) (a b : Json), (named l n)[k]? = some a → (named l' n)[k]? = some b →
        SameContents names a b) :
      SameContents names (.obj l) (.obj l')

end Verif
