import Verif.Model.SgxVerify

/-!
# Model of teerex/sgx-verify/src/ephemeral_key.rs

No call of the pallets uses this function (teerex/sgx-verify/src/lib.rs L684 says that it is skipped).
-/

namespace Verif

/-- `PRIME256V1_OID`, teerex/sgx-verify/src/ephemeral_key.rs L24: tag, length and contents. -/
def prime256v1Oid : Bytes := [0x06, 0x08, 0x2A, 0x86, 0x48, 0xCE, 0x3D, 0x03, 0x01, 0x07]

/-- The two errors of teerex/sgx-verify/src/ephemeral_key.rs L34, L44 and of teerex/sgx-verify/src/utils.rs L19. -/
inductive EphemeralKeyError where
  | oidMissing
  | outOfBounds
  deriving DecidableEq

/-- `TryFrom<CertDer> for EphemeralKey`, teerex/sgx-verify/src/ephemeral_key.rs L25-49. `get(a..b)` is `None` if
`b < a`. Simplified: offsets are not bounded by `usize` (they are at most the length of the certificate plus 2^16). -/
def ephemeralKey (der : Bytes) : Except EphemeralKeyError Bytes := do
  let off ← okOr (findSub prime256v1Oid der) .oidMissing
  let (len, off) ← okOr (lengthFromRawData der (off + prime256v1Oid.length + 1)) .outOfBounds
  let start := off + 1
  if start + len < start + 2 then .error .outOfBounds
  else okOr (slice? der (start + 2) (len - 2)) .outOfBounds

end Verif
