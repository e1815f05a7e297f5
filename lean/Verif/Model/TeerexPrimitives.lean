import Verif.Model.CommonPrimitives

/-!
# Model of primitives/teerex/src/lib.rs
-/

namespace Verif

/-- `SgxBuildMode`, primitives/teerex/src/lib.rs L32-36. -/
inductive SgxBuildMode where
  | debug
  | production
  deriving DecidableEq

/-- `SgxAttestationMethod`, primitives/teerex/src/lib.rs L39-43. -/
inductive SgxAttestationMethod where
  | skip (proxied : Bool)
  | ias
  | dcap (proxied : Bool)
  deriving DecidableEq

/-- `SgxReportData` (the 64 bytes `d`), primitives/teerex/src/lib.rs L51-62. -/
abbrev SgxReportData := Arr 64

/-- `SgxReportData::lower32`, primitives/teerex/src/lib.rs L78-84. -/
def lower32 (d : SgxReportData) : Arr 32 := ⟨d.val.take 32, by simp [d.property]⟩

/-- `SgxStatus`, primitives/teerex/src/lib.rs L87-94. -/
inductive SgxStatus where
  | invalid
  | ok
  | groupOutOfDate
  | groupRevoked
  | configurationNeeded
  deriving DecidableEq

/-- `TcbStatus`, primitives/teerex/src/lib.rs L123-132. -/
inductive TcbStatus where
  | unknown
  | upToDate
  | swHardeningNeeded
  | configurationAndSWHardeningNeeded
  | outOfDate
  | outOfDateConfigurationNeeded
  | revoked
  deriving DecidableEq

/-- `From<TcbStatus> for SgxStatus`, primitives/teerex/src/lib.rs L96-108. -/
def SgxStatus.ofTcb : TcbStatus → SgxStatus
  | .upToDate => .ok
  | .swHardeningNeeded => .ok
  | .configurationAndSWHardeningNeeded => .configurationNeeded
  | .outOfDate => .groupOutOfDate
  | .outOfDateConfigurationNeeded => .groupOutOfDate
  | .unknown => .invalid
  | .revoked => .groupRevoked

/-- `MrEnclave`, primitives/teerex/src/lib.rs L388. -/
abbrev MrEnclave := Arr 32
/-- `MrSigner`, primitives/teerex/src/lib.rs L387. -/
abbrev MrSigner := Arr 32
/-- `Fmspc`, primitives/teerex/src/lib.rs L389. -/
abbrev Fmspc := Arr 6
/-- `Cpusvn`, primitives/teerex/src/lib.rs L390. -/
abbrev Cpusvn := Arr 16

/-- `SgxEnclave<Vec<u8>>`, primitives/teerex/src/lib.rs L190-200. `MultiEnclave` (L134-137) has only the
`Sgx` variant and is modelled by the same type. -/
structure SgxEnclave where
  reportData : SgxReportData
  mrEnclave : MrEnclave
  mrSigner : MrSigner
  timestamp : Nat
  url : Option Bytes
  buildMode : SgxBuildMode
  method : SgxAttestationMethod
  status : SgxStatus
  deriving DecidableEq

/-- `SgxEnclave::new`, primitives/teerex/src/lib.rs L203-221. -/
def SgxEnclave.new (rd : SgxReportData) (me : MrEnclave) (ms : MrSigner) (ts : Nat) (bm : SgxBuildMode)
    (st : SgxStatus) : SgxEnclave :=
  { reportData := rd, mrEnclave := me, mrSigner := ms, timestamp := ts, url := none, buildMode := bm,
    method := .skip false, status := st }

/-- `SgxEnclave::maybe_pubkey`, primitives/teerex/src/lib.rs L223-236, for 32-byte keys (whose decoding from
32 bytes never fails). -/
def SgxEnclave.maybePubkey (e : SgxEnclave) : Option (Arr 32) :=
  match e.method with
  | .dcap false => some (lower32 e.reportData)
  | .skip false => some (lower32 e.reportData)
  | .ias => some (lower32 e.reportData)
  | _ => none

/-- `SgxEnclave::with_url`, primitives/teerex/src/lib.rs L238-241, called in the match of teerex/src/lib.rs
L426-429: nothing happens without a url. -/
def SgxEnclave.withUrl (e : SgxEnclave) (url : Option Bytes) : SgxEnclave :=
  match url with
  | some u => { e with url := some u }
  | none => e

/-- `SgxEnclave::with_pubkey`, primitives/teerex/src/lib.rs L248-253. `none` is the slice panic for keys
longer than 64 bytes. -/
def SgxEnclave.withPubkey (e : SgxEnclave) (k : Bytes) : Option SgxEnclave :=
  if h : k.length ≤ 64 then
    some { e with reportData := ⟨k ++ List.replicate (64 - k.length) 0, by simp; omega⟩ }
  else none

/-- `MultiEnclave::fingerprint`, primitives/teerex/src/lib.rs L151-155. -/
def SgxEnclave.fingerprint (e : SgxEnclave) : Fingerprint := e.mrEnclave

/-- `MultiEnclave::author`, primitives/teerex/src/lib.rs L143-149. -/
def SgxEnclave.author (e : SgxEnclave) : AnySigner := .opaque ((opaqueTryFrom e.mrSigner.val).getD [])

/-- `MultiEnclave::instance_signer`, primitives/teerex/src/lib.rs L157-165. `none` is a panic. -/
def SgxEnclave.instanceSigner (e : SgxEnclave) : Option AnySigner :=
  match e.maybePubkey with
  | some k => some (.known (.ed25519 k))
  | none => AnySigner.from64 e.reportData

/-- `MultiEnclave::attestaion_proxied`, primitives/teerex/src/lib.rs L179-187. -/
def SgxEnclave.proxied (e : SgxEnclave) : Bool :=
  match e.method with
  | .skip true => true
  | .dcap true => true
  | _ => false

/-- `SgxQuotingEnclave`, primitives/teerex/src/lib.rs L270-284; `tcb : Vec<QeTcb>` (L258-260) is the list
of its `isvsvn`. -/
structure SgxQuotingEnclave where
  issueDate : Nat
  nextUpdate : Nat
  miscselect : Arr 4
  miscselectMask : Arr 4
  attributes : Arr 16
  attributesMask : Arr 16
  mrsigner : MrSigner
  isvprodid : Nat
  tcb : List Nat
  deriving DecidableEq

/-- `Default for SgxQuotingEnclave` (derived), primitives/teerex/src/lib.rs L270: the value read from
`SgxQuotingEnclaveRegistry` before anything was registered. -/
def SgxQuotingEnclave.default : SgxQuotingEnclave :=
  { issueDate := 0, nextUpdate := 0, miscselect := Arr.zero 4, miscselectMask := Arr.zero 4,
    attributes := Arr.zero 16, attributesMask := Arr.zero 16, mrsigner := Arr.zero 32, isvprodid := 0,
    tcb := [] }

/-- `attributes_flags_mask_as_u64`, primitives/teerex/src/lib.rs L312-315. -/
def SgxQuotingEnclave.flagsMask (o : SgxQuotingEnclave) : Nat := leNat (o.attributesMask.val.take 8)

/-- `attributes_flags_as_u64`, primitives/teerex/src/lib.rs L317-320. -/
def SgxQuotingEnclave.flags (o : SgxQuotingEnclave) : Nat := leNat (o.attributes.val.take 8)

/-- `TcbVersionStatus`, primitives/teerex/src/lib.rs L323-328. -/
structure TcbVersionStatus where
  cpusvn : Cpusvn
  pcesvn : Nat
  tcbStatus : TcbStatus
  deriving DecidableEq

/-- The loop of `TcbVersionStatus::verify_examinee`, primitives/teerex/src/lib.rs L339-344: false as soon as
one reference component is greater. -/
def svnLoop : Bytes → Bytes → Bool
  | v :: vs, r :: rs => if v > r then false else svnLoop vs rs
  | _, _ => true

/-- `TcbVersionStatus::verify_examinee`, primitives/teerex/src/lib.rs L338-352. -/
def TcbVersionStatus.verifyExaminee (self examinee : TcbVersionStatus) : Bool :=
  svnLoop self.cpusvn.val examinee.cpusvn.val && decide (self.pcesvn ≤ examinee.pcesvn)

/-- `SgxTcbInfoOnChain`, primitives/teerex/src/lib.rs L357-364. -/
structure SgxTcbInfoOnChain where
  issueDate : Nat
  nextUpdate : Nat
  tcbLevels : List TcbVersionStatus
  deriving DecidableEq

/-- The loop of `SgxTcbInfoOnChain::verify_examinee`, primitives/teerex/src/lib.rs L377-383. -/
def tcbLoop : List TcbVersionStatus → TcbVersionStatus → Option SgxStatus
  | [], _ => none
  | tb :: tbs, x => if tb.verifyExaminee x then some (SgxStatus.ofTcb tb.tcbStatus) else tcbLoop tbs x

/-- `SgxTcbInfoOnChain::verify_examinee`, primitives/teerex/src/lib.rs L374-384. -/
def SgxTcbInfoOnChain.verifyExaminee (self : SgxTcbInfoOnChain) (x : TcbVersionStatus) : Option SgxStatus :=
  tcbLoop self.tcbLevels x

/-- `EnclaveInstanceAddress`, primitives/teerex/src/lib.rs L393-398. -/
structure EnclaveInstanceAddress where
  fingerprint : Fingerprint
  registrar : AccountId
  signer : AnySigner
  deriving DecidableEq

end Verif
