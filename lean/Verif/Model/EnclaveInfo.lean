import Verif.Model.TeerexPrimitives

/-!
# Model of the remaining functions of primitives/teerex/src/lib.rs on enclaves

Accessors and builders that the pallets use inline or not at all, but that clients call.
-/

namespace Verif

/-- `Default for SgxAttestationMethod`, primitives/teerex/src/lib.rs L45-49. -/
def SgxAttestationMethod.default : SgxAttestationMethod := .skip false

/-- `Default for SgxReportData`, primitives/teerex/src/lib.rs L58-62. -/
def SgxReportData.default : SgxReportData := ⟨List.replicate 64 0, by simp⟩

/-- `From<&[u8; 32]> for SgxReportData`, primitives/teerex/src/lib.rs L64-70: the first 32 bytes of the default are
overwritten. -/
def SgxReportData.ofKey (k : Arr 32) : SgxReportData :=
  ⟨k.val ++ SgxReportData.default.val.drop 32, by simp [SgxReportData.default, k.property]⟩

/-- `AsRef<[u8; 64]> for SgxReportData`, primitives/teerex/src/lib.rs L72-76. -/
def SgxReportData.bytes (d : SgxReportData) : Arr 64 := d

/-- `MultiEnclave::instance_url`, primitives/teerex/src/lib.rs L167-171. -/
def SgxEnclave.instanceUrl (e : SgxEnclave) : Option Bytes := e.url

/-- `MultiEnclave::attestation_timestamp`, primitives/teerex/src/lib.rs L173-177. -/
def SgxEnclave.attestationTimestamp (e : SgxEnclave) : Nat := e.timestamp

/-- `SgxEnclave::with_attestation_method`, primitives/teerex/src/lib.rs L243-246. -/
def SgxEnclave.withAttestationMethod (e : SgxEnclave) (m : SgxAttestationMethod) : SgxEnclave := { e with method := m }

end Verif
