import Verif.Spec.Refusal
import Verif.Model.EphemeralKey

/-!
# Specification: the public key in a certificate (RFC 5480)
-/

namespace Verif

namespace Der

/-- The object identifier 1.2.840.10045.3.1.7 (the curve P-256) in DER: tag, length, contents. -/
def p256 : Bytes := [0x06, 0x08, 0x2A, 0x86, 0x48, 0xCE, 0x3D, 0x03, 0x01, 0x07]

/-- A public key on this curve as in certificates: the sequence of the algorithm (1.2.840.10045.2.1 with the curve)
and the bit string of the point, uncompressed. -/
def subjectPublicKey (point : Arr 64) : Bytes :=
  [0x30, 0x59, 0x30, 0x13, 0x06, 0x07, 0x2A, 0x86, 0x48, 0xCE, 0x3D, 0x02, 0x01] ++ p256 ++ [0x03, 0x42, 0x00, 0x04] ++ point.val

end Der

end Verif
