import Verif.Model.TeerexPrimitives
import Verif.Model.Json

/-!
# Model of teerex/sgx-verify/src/collateral.rs

Dates are milliseconds since the epoch, as signed integers (`DateTime::timestamp_millis() : i64`).
JSON syntax and the text form of dates are external; reading and writing the JSON trees is modelled at the end.
-/

namespace Verif

/-- `TcbLevel` with `Tcb` inlined, teerex/sgx-verify/src/collateral.rs L33-36, L46-57. -/
structure QeTcbLevel where
  isvsvn : Nat
  tcbDate : Int
  tcbStatus : TcbStatus
  advisoryIds : Option (List String)
  deriving DecidableEq

/-- `Tcb::is_valid`, teerex/sgx-verify/src/collateral.rs L38-44. No code calls it. -/
def QeTcbLevel.isValid (l : QeTcbLevel) : Bool := decide (6 ≤ l.isvsvn)

/-- `EnclaveIdentity`, teerex/sgx-verify/src/collateral.rs L88-113. -/
structure EnclaveIdentity where
  id : String
  version : Nat
  issueDate : Int
  nextUpdate : Int
  tcbEvaluationDataNumber : Nat
  miscselect : Arr 4
  miscselectMask : Arr 4
  attributes : Arr 16
  attributesMask : Arr 16
  mrsigner : MrSigner
  isvprodid : Nat
  tcbLevels : List QeTcbLevel

/-- `i64` milliseconds to `u64` with `expect("no support for negative unix timestamps")`,
teerex/sgx-verify/src/collateral.rs L139-146, L198-205. `none` is the panic. -/
def millisToU64 (t : Int) : Option Nat := if 0 ≤ t then some t.toNat else none

/-- `EnclaveIdentity::to_quoting_enclave`, teerex/sgx-verify/src/collateral.rs L133-155. All levels are
pushed, whatever their status. `none` is the panic on negative dates. -/
def EnclaveIdentity.toQuotingEnclave (i : EnclaveIdentity) : Option SgxQuotingEnclave := do
  let issue ← millisToU64 i.issueDate
  let next ← millisToU64 i.nextUpdate
  some { issueDate := issue, nextUpdate := next, miscselect := i.miscselect,
         miscselectMask := i.miscselectMask, attributes := i.attributes,
         attributesMask := i.attributesMask, mrsigner := i.mrsigner, isvprodid := i.isvprodid,
         tcb := i.tcbLevels.map (·.isvsvn) }

/-- `EnclaveIdentity::is_valid`, teerex/sgx-verify/src/collateral.rs L157-162. -/
def EnclaveIdentity.isValid (i : EnclaveIdentity) (t : Int) : Bool :=
  i.id == "QE" && i.version == 2 && decide (i.issueDate < t) && decide (t < i.nextUpdate)

/-- `TcbComponent`, teerex/sgx-verify/src/collateral.rs L59-67. -/
structure TcbComponent where
  svn : UInt8
  category : Option String
  tcbType : Option String
  deriving DecidableEq

/-- `TcbLevelFull` with `TcbFull` inlined, teerex/sgx-verify/src/collateral.rs L69-86. -/
structure TcbLevelFull where
  components : { l : List TcbComponent // l.length = 16 }
  pcesvn : Nat
  tcbDate : Int
  tcbStatus : TcbStatus
  advisoryIds : Option (List String)
  deriving DecidableEq

/-- The copy loop over the components, teerex/sgx-verify/src/collateral.rs L189-192. -/
def TcbLevelFull.svns (l : TcbLevelFull) : Arr 16 :=
  ⟨l.components.val.map (·.svn), by rw [List.length_map]; exact l.components.property⟩

/-- `TcbInfo`, teerex/sgx-verify/src/collateral.rs L165-179. -/
structure TcbInfo where
  id : String
  version : Nat
  issueDate : Int
  nextUpdate : Int
  fmspc : Fmspc
  pceId : String
  tcbType : Nat
  tcbEvaluationDataNumber : Nat
  tcbLevels : List TcbLevelFull

/-- `TcbInfo::to_chain_tcb_info`, teerex/sgx-verify/src/collateral.rs L183-209. `none` is the panic on negative
dates. -/
def TcbInfo.toChain (i : TcbInfo) : Option (Fmspc × SgxTcbInfoOnChain) := do
  let issue ← millisToU64 i.issueDate
  let next ← millisToU64 i.nextUpdate
  some (i.fmspc,
    { issueDate := issue, nextUpdate := next,
      tcbLevels := i.tcbLevels.map fun l =>
        { cpusvn := l.svns, pcesvn := l.pcesvn, tcbStatus := l.tcbStatus } })

/-- `TcbInfo::is_valid`, teerex/sgx-verify/src/collateral.rs L211-222. -/
def TcbInfo.isValid (i : TcbInfo) (t : Int) : Bool :=
  i.id == "SGX" && i.version == 3 && decide (i.issueDate < t) && decide (t < i.nextUpdate)

/-! ### Reading JSON -/

/-- The bytes of a text, as given to `hex::decode` in teerex/sgx-verify/src/collateral.rs L127. Simplified: a
character outside ASCII becomes one byte 255 instead of its UTF-8 bytes; `hex::decode` rejects both. -/
def hexText (s : String) : Bytes := s.toList.map fun ch => if ch.toNat < 128 then UInt8.ofNat ch.toNat else 255

/-- `deserialize_from_hex`, teerex/sgx-verify/src/collateral.rs L122-129. -/
def hexField (n : Nat) (j : Json) : Option (Arr n) := do
  let s ← j.borrowed
  let b ← hexDecode (hexText s)
  Arr.ofBytes? n b

/-- Names of the variants of `TcbStatus`, primitives/teerex/src/lib.rs L123-132 (derived, not renamed). -/
def TcbStatus.name : TcbStatus → String
  | .unknown => "Unknown"
  | .upToDate => "UpToDate"
  | .swHardeningNeeded => "SWHardeningNeeded"
  | .configurationAndSWHardeningNeeded => "ConfigurationAndSWHardeningNeeded"
  | .outOfDate => "OutOfDate"
  | .outOfDateConfigurationNeeded => "OutOfDateConfigurationNeeded"
  | .revoked => "Revoked"

/-- The variant with a given name, primitives/teerex/src/lib.rs L110-132 (derived). -/
def TcbStatus.ofName (s : String) : Option TcbStatus :=
  [TcbStatus.unknown, .upToDate, .swHardeningNeeded, .configurationAndSWHardeningNeeded, .outOfDate,
    .outOfDateConfigurationNeeded, .revoked].find? fun v => v.name == s

/-- `Deserialize for TcbStatus`, primitives/teerex/src/lib.rs L110-132 (derived): the name of the variant, or an
object with that name and null. -/
def TcbStatus.ofJson : Json → Option TcbStatus
  | .str s _ => TcbStatus.ofName s
  | .obj [(s, .null)] => TcbStatus.ofName s
  | _ => none

/-- A date field: `Deserialize for DateTime<Utc>` (chrono, external) on a string; `date` is the text format. -/
def dateField (date : String → Option Int) (j : Json) : Option Int := j.string.bind date

/-- `Deserialize for Tcb`, teerex/sgx-verify/src/collateral.rs L33-36 (derived). -/
def qeTcbOfJson (j : Json) : Option Nat := do
  match ← j.fields ["isvsvn"] with
  | [a] => Json.req (Json.uint 65535) a
  | _ => none

/-- `Deserialize for TcbLevel`, teerex/sgx-verify/src/collateral.rs L46-57 (derived, camelCase). -/
def QeTcbLevel.ofJson (date : String → Option Int) (j : Json) : Option QeTcbLevel := do
  match ← j.fields ["tcb", "tcbDate", "tcbStatus", "advisoryIDs"] with
  | [a, b, c, d] => do
    let isvsvn ← Json.req qeTcbOfJson a
    let tcbDate ← Json.req (dateField date) b
    let tcbStatus ← Json.req TcbStatus.ofJson c
    let advisoryIds ← Json.opt (Json.vec Json.string) d
    some { isvsvn, tcbDate, tcbStatus, advisoryIds }
  | _ => none

/-- `Deserialize for EnclaveIdentity`, teerex/sgx-verify/src/collateral.rs L88-113 (derived, camelCase). -/
def EnclaveIdentity.ofJson (date : String → Option Int) (j : Json) : Option EnclaveIdentity := do
  match ← j.fields ["id", "version", "issueDate", "nextUpdate", "tcbEvaluationDataNumber", "miscselect",
      "miscselectMask", "attributes", "attributesMask", "mrsigner", "isvprodid", "tcbLevels"] with
  | [a, b, c, d, e, f, g, h, i, k, l, m] => do
    let id ← Json.req Json.string a
    let version ← Json.req (Json.uint 65535) b
    let issueDate ← Json.req (dateField date) c
    let nextUpdate ← Json.req (dateField date) d
    let tcbEvaluationDataNumber ← Json.req (Json.uint 65535) e
    let miscselect ← Json.req (hexField 4) f
    let miscselectMask ← Json.req (hexField 4) g
    let attributes ← Json.req (hexField 16) h
    let attributesMask ← Json.req (hexField 16) i
    let mrsigner ← Json.req (hexField 32) k
    let isvprodid ← Json.req (Json.uint 65535) l
    let tcbLevels ← Json.req (Json.vec (QeTcbLevel.ofJson date)) m
    some { id, version, issueDate, nextUpdate, tcbEvaluationDataNumber, miscselect, miscselectMask, attributes,
           attributesMask, mrsigner, isvprodid, tcbLevels }
  | _ => none

/-- `Deserialize for TcbComponent`, teerex/sgx-verify/src/collateral.rs L59-67 (derived). -/
def TcbComponent.ofJson (j : Json) : Option TcbComponent := do
  match ← j.fields ["svn", "category", "type"] with
  | [a, b, c] => do
    let svn ← Json.req (Json.uint 255) a
    let category ← Json.opt Json.string b
    let tcbType ← Json.opt Json.string c
    some { svn := UInt8.ofNat svn, category, tcbType }
  | _ => none

/-- `Deserialize for TcbFull`, teerex/sgx-verify/src/collateral.rs L69-73 (derived). -/
def tcbFullOfJson (j : Json) : Option ({ l : List TcbComponent // l.length = 16 } × Nat) := do
  match ← j.fields ["sgxtcbcomponents", "pcesvn"] with
  | [a, b] => do
    let components ← Json.req (Json.array 16 TcbComponent.ofJson) a
    let pcesvn ← Json.req (Json.uint 65535) b
    some (components, pcesvn)
  | _ => none

/-- `Deserialize for TcbLevelFull`, teerex/sgx-verify/src/collateral.rs L75-86 (derived, camelCase). -/
def TcbLevelFull.ofJson (date : String → Option Int) (j : Json) : Option TcbLevelFull := do
  match ← j.fields ["tcb", "tcbDate", "tcbStatus", "advisoryIDs"] with
  | [a, b, c, d] => do
    let (components, pcesvn) ← Json.req tcbFullOfJson a
    let tcbDate ← Json.req (dateField date) b
    let tcbStatus ← Json.req TcbStatus.ofJson c
    let advisoryIds ← Json.opt (Json.vec Json.string) d
    some { components, pcesvn, tcbDate, tcbStatus, advisoryIds }
  | _ => none

/-- `Deserialize for TcbInfo`, teerex/sgx-verify/src/collateral.rs L165-179 (derived, camelCase). -/
def TcbInfo.ofJson (date : String → Option Int) (j : Json) : Option TcbInfo := do
  match ← j.fields ["id", "version", "issueDate", "nextUpdate", "fmspc", "pceId", "tcbType",
      "tcbEvaluationDataNumber", "tcbLevels"] with
  | [a, b, c, d, e, f, g, h, i] => do
    let id ← Json.req Json.string a
    let version ← Json.req (Json.uint 255) b
    let issueDate ← Json.req (dateField date) c
    let nextUpdate ← Json.req (dateField date) d
    let fmspc ← Json.req (hexField 6) e
    let pceId ← Json.req Json.string f
    let tcbType ← Json.req (Json.uint 65535) g
    let tcbEvaluationDataNumber ← Json.req (Json.uint 65535) h
    let tcbLevels ← Json.req (Json.vec (TcbLevelFull.ofJson date)) i
    some { id, version, issueDate, nextUpdate, fmspc, pceId, tcbType, tcbEvaluationDataNumber, tcbLevels }
  | _ => none

/-! ### Writing JSON -/

/-- `serialize_to_hex`, teerex/sgx-verify/src/collateral.rs L115-120. -/
def hexToJson (b : Bytes) : Json := .str (String.ofList ((asciiUpper (hexEncode b)).map fun x => Char.ofNat x.toNat)) false

/-- A member that is left out if there is no value: `skip_serializing_if = "Option::is_none"`, e.g.
teerex/sgx-verify/src/collateral.rs L54-56. -/
def optMember {α : Type} (name : String) (f : α → Json) : Option α → List (String × Json)
  | some a => [(name, f a)]
  | none => []

/-- A list of strings as JSON (derived), teerex/sgx-verify/src/collateral.rs L56 and L85. -/
def stringsToJson (l : List String) : Json := .arr (l.map fun s => .str s false)

/-- `Serialize for TcbLevel`, teerex/sgx-verify/src/collateral.rs L46-57 (derived); `date` writes a date. -/
def QeTcbLevel.toJson (date : Int → String) (l : QeTcbLevel) : Json :=
  .obj ([("tcb", .obj [("isvsvn", .int l.isvsvn)]), ("tcbDate", .str (date l.tcbDate) false),
    ("tcbStatus", .str l.tcbStatus.name false)] ++ optMember "advisoryIDs" stringsToJson l.advisoryIds)

/-- `Serialize for EnclaveIdentity`, teerex/sgx-verify/src/collateral.rs L88-113 (derived). -/
def EnclaveIdentity.toJson (date : Int → String) (i : EnclaveIdentity) : Json :=
  .obj [("id", .str i.id false), ("version", .int i.version), ("issueDate", .str (date i.issueDate) false),
    ("nextUpdate", .str (date i.nextUpdate) false), ("tcbEvaluationDataNumber", .int i.tcbEvaluationDataNumber),
    ("miscselect", hexToJson i.miscselect.val), ("miscselectMask", hexToJson i.miscselectMask.val),
    ("attributes", hexToJson i.attributes.val), ("attributesMask", hexToJson i.attributesMask.val),
    ("mrsigner", hexToJson i.mrsigner.val), ("isvprodid", .int i.isvprodid),
    ("tcbLevels", .arr (i.tcbLevels.map (·.toJson date)))]

/-- `Serialize for TcbComponent`, teerex/sgx-verify/src/collateral.rs L59-67 (derived). -/
def TcbComponent.toJson (c : TcbComponent) : Json :=
  .obj ([("svn", .int c.svn.toNat)] ++ optMember "category" (Json.str · false) c.category ++
    optMember "type" (Json.str · false) c.tcbType)

/-- `Serialize for TcbLevelFull`, teerex/sgx-verify/src/collateral.rs L69-86 (derived). -/
def TcbLevelFull.toJson (date : Int → String) (l : TcbLevelFull) : Json :=
  .obj ([("tcb", .obj [("sgxtcbcomponents", .arr (l.components.val.map TcbComponent.toJson)),
      ("pcesvn", .int l.pcesvn)]), ("tcbDate", .str (date l.tcbDate) false),
    ("tcbStatus", .str l.tcbStatus.name false)] ++ optMember "advisoryIDs" stringsToJson l.advisoryIds)

/-- `Serialize for TcbInfo`, teerex/sgx-verify/src/collateral.rs L165-179 (derived). -/
def TcbInfo.toJson (date : Int → String) (i : TcbInfo) : Json :=
  .obj [("id", .str i.id false), ("version", .int i.version), ("issueDate", .str (date i.issueDate) false),
    ("nextUpdate", .str (date i.nextUpdate) false), ("fmspc", hexToJson i.fmspc.val), ("pceId", .str i.pceId false),
    ("tcbType", .int i.tcbType), ("tcbEvaluationDataNumber", .int i.tcbEvaluationDataNumber),
    ("tcbLevels", .arr (i.tcbLevels.map (·.toJson date)))]

end Verif
