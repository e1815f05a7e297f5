import Verif.Spec.Der

/-!
# The extension of PCK certificates, as Intel defines it

Specification only: the values of the X.509 extension 1.2.840.113741.1.13.1 in the certificate of a platform ("Intel SGX
PCK Certificate and Certificate Revocation List Profile Specification", section 1.3.5), in DER (ITU-T X.690). Nothing here
is taken from /repo.
-/

namespace Verif.Der

/-- Tag, length and content, for contents with fewer than 2^24 bytes. -/
def tlv (tag : UInt8) (content : Bytes) : Bytes := tag :: lengthBytes content.length ++ content

/-- The shortest big-endian two's complement content of a number below 2^16. -/
def uintContent (n : Nat) : Bytes :=
  if n < 128 then [UInt8.ofNat n]
  else if n < 32768 then [UInt8.ofNat (n / 256), UInt8.ofNat (n % 256)]
  else [0, UInt8.ofNat (n / 256), UInt8.ofNat (n % 256)]

/-- A number below 2^16: tag 2. -/
def uint (n : Nat) : Bytes := tlv 0x02 (uintContent n)

/-- An octet string: tag 4. -/
def octets (b : Bytes) : Bytes := tlv 0x04 b

/-- The object identifier 1.2.840.113741.1.13.1 in DER, without tag and length. -/
def sgxArc : Bytes := [0x2A, 0x86, 0x48, 0x86, 0xF8, 0x4D, 1, 13, 1]

/-- An entry: a sequence of the object identifier `sgxArc ++ suffix` and a value. -/
def entry (suffix value : Bytes) : Bytes := tlv 0x30 (tlv 0x06 (sgxArc ++ suffix) ++ value)

/-- The contents of the extension. -/
structure PckExtension where
  /-- the provisioning id of the platform -/
  ppid : Arr 16
  /-- the security version numbers of the 16 components -/
  components : Arr 16
  pcesvn : Nat
  cpusvn : Arr 16
  pceid : Arr 2
  fmspc : Arr 6
  /-- 0 standard, 1 scalable, 2 scalable with integrity -/
  sgxType : UInt8
  /-- further entries, for certificates that a platform CA issued: platform instance id and configuration -/
  more : Bytes

/-- The entries for components number `k`, `k + 1`, ... -/
def componentEntries : Nat → Bytes → Bytes
  | _, [] => []
  | k, v :: vs => entry [2, UInt8.ofNat k] (uint v.toNat) ++ componentEntries (k + 1) vs

/-- The extension in DER. -/
def PckExtension.der (e : PckExtension) : Bytes :=
  tlv 0x30
    (entry [1] (octets e.ppid.val) ++
     entry [2] (tlv 0x30
       (componentEntries 1 e.components.val ++ entry [2, 17] (uint e.pcesvn) ++ entry [2, 18] (octets e.cpusvn.val))) ++
     entry [3] (octets e.pceid.val) ++
     entry [4] (octets e.fmspc.val) ++
     entry [5] (tlv 0x0A [e.sgxType]) ++
     e.more)

/-- `pat` does not occur in `l`. -/
def Absent (pat l : Bytes) : Prop := ∀ p q, l ≠ p ++ pat ++ q

end Verif.Der
