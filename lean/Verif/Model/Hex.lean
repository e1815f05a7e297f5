import Verif.Base

/-!
# Hexadecimal text

The two hexadecimal codecs used by the code: crate `hex` 0.4.3 (collateral.rs) and crate `rustc-hex` 2.1.0
(`EthereumAddress`). Both are external; the definitions below are the trusted description of what they do.
Text is given by its UTF-8 bytes.
-/

namespace Verif

/-- A digit in lower case (tables of `hex::encode` and `rustc_hex::ToHex`, external). -/
def hexLower (n : Nat) : UInt8 := UInt8.ofNat (if n < 10 then 48 + n else 87 + n)

/-- `hex::encode` (external; called in teerex/sgx-verify/src/collateral.rs L119) and `rustc_hex::ToHex::to_hex`
(external; called in primitives/claims/src/lib.rs L99): two lower case digits per byte, high digit first. -/
def hexEncode (b : Bytes) : Bytes := b.flatMap fun x => [hexLower (x.toNat / 16), hexLower (x.toNat % 16)]

/-- `str::to_uppercase` on ASCII text (external; called in teerex/sgx-verify/src/collateral.rs L119). -/
def asciiUpper (b : Bytes) : Bytes := b.map fun x => if 97 ≤ x ∧ x ≤ 122 then x - 32 else x

/-- Value of a digit in either case (`hex::val`, external). -/
def hexVal (x : UInt8) : Option Nat :=
  if 48 ≤ x ∧ x ≤ 57 then some (x.toNat - 48)
  else if 97 ≤ x ∧ x ≤ 102 then some (x.toNat - 87)
  else if 65 ≤ x ∧ x ≤ 70 then some (x.toNat - 55)
  else none

/-- `hex::decode` (external; called in teerex/sgx-verify/src/collateral.rs L127): fails on an odd number of
characters and on anything but digits. -/
def hexDecode : Bytes → Option Bytes
  | [] => some []
  | [_] => none
  | x :: y :: rest => do
    let h ← hexVal x
    let l ← hexVal y
    let r ← hexDecode rest
    some (UInt8.ofNat (h * 16 + l) :: r)

/-- White space skipped by `rustc_hex` (external): space, CR, LF, tab. -/
def isHexSpace (x : UInt8) : Bool := x == 32 || x == 13 || x == 10 || x == 9

/-- `rustc_hex::FromHex::from_hex` (external; called in primitives/claims/src/lib.rs L117): white space between
digits is skipped, like in `rustc_serialize` from which the crate is derived. -/
def rustcFromHex (b : Bytes) : Option Bytes := hexDecode (b.filter fun x => !isHexSpace x)

end Verif
