import Verif.Base

/-!
# DER and PEM, as the standards define them

Specification only: ITU-T X.690 for non-negative integers and sequences of two of them, RFC 7468 for the textual
encoding of certificates. Nothing here is taken from /repo.
-/

namespace Verif.Der

/-- `b` is the DER encoding of the number `n`: tag 2, a one-byte length, and the shortest big-endian two's complement
content. -/
def IsUInt (n : Nat) (b : Bytes) : Prop :=
  ∃ (len first : UInt8) (more : Bytes), b = 0x02 :: len :: first :: more ∧ len.toNat = (first :: more).length ∧
    len < 0x80 ∧ beNat (first :: more) = n ∧ first < 0x80 ∧
    ∀ second rest, more = second :: rest → first = 0 → 0x80 ≤ second

/-- `b` is the DER encoding of the sequence of the two numbers: an ECDSA signature value (RFC 3279). -/
def IsSignature (r s : Nat) (b : Bytes) : Prop :=
  ∃ (len : UInt8) (x y : Bytes), IsUInt r x ∧ IsUInt s y ∧ b = 0x30 :: len :: (x ++ y) ∧
    len.toNat = (x ++ y).length ∧ len < 0x80

/-- The DER encoding of a length below 2^24. -/
def lengthBytes (n : Nat) : Bytes :=
  if n < 128 then [UInt8.ofNat n]
  else if n < 256 then [0x81, UInt8.ofNat n]
  else if n < 65536 then [0x82, UInt8.ofNat (n / 256), UInt8.ofNat (n % 256)]
  else [0x83, UInt8.ofNat (n / 65536), UInt8.ofNat (n / 256 % 256), UInt8.ofNat (n % 256)]

/-- `off` is where `pat` occurs first in `l`. -/
def FirstAt (pat l : Bytes) (off : Nat) : Prop :=
  (∃ p q, l = p ++ pat ++ q ∧ p.length = off) ∧ ∀ p q, l = p ++ pat ++ q → off ≤ p.length

/-- ASCII bytes of a literal. -/
def ascii (s : String) : Bytes := s.toList.map fun c => UInt8.ofNat c.toNat

/-- A certificate in its textual encoding; `body` is the Base64 text, broken into lines at will. -/
def armour (body : Bytes) : Bytes :=
  ascii "-----BEGIN CERTIFICATE-----\n" ++ body ++ ascii "\n-----END CERTIFICATE-----\n"

/-- A body: ASCII, without dashes (they are not in the Base64 alphabet), not only line breaks. -/
def IsBody (body : Bytes) : Prop := (∀ c ∈ body, c < 128 ∧ c ≠ 45) ∧ ∃ c ∈ body, c ≠ 10

/-- The text without line breaks. -/
def joinLines (body : Bytes) : Bytes := body.filter (· ≠ 10)

end Verif.Der
