import Verif.Base

/-!
# Base64 text

What `base64::decode` and `decode_config(_, STANDARD)` read (crate base64 0.13.1, external), called in
teerex/sgx-verify/src/lib.rs L528 and L748 and in teerex/sgx-verify/src/netscape_comment.rs L58-61. The source of the
crate is not part of /repo; the definitions below are the trusted description of it.
-/

namespace Verif.Base64

/-- Value of a symbol of the standard alphabet (external: decode table of crate base64, for
teerex/sgx-verify/src/lib.rs L528, L748). -/
def value (c : UInt8) : Option Nat :=
  let n := c.toNat
  if 65 ≤ n ∧ n ≤ 90 then some (n - 65)
  else if 97 ≤ n ∧ n ≤ 122 then some (n - 71)
  else if 48 ≤ n ∧ n ≤ 57 then some (n + 4)
  else if n = 43 then some 62
  else if n = 47 then some 63
  else none

/-- The bytes of a sequence of symbols (external: `decode_helper` of crate base64, for teerex/sgx-verify/src/lib.rs L528,
L748): symbols that do not fill a byte must not have bits left over (`decode_allow_trailing_bits` is off). -/
def decodeSymbols : Bytes → Option Bytes
  | a :: b :: c :: d :: r => do
    let a ← value a
    let b ← value b
    let c ← value c
    let d ← value d
    let l ← decodeSymbols r
    some (UInt8.ofNat (a * 4 + b / 16) :: UInt8.ofNat (b % 16 * 16 + c / 4) :: UInt8.ofNat (c % 4 * 64 + d) :: l)
  | [a, b, c] => do
    let a ← value a
    let b ← value b
    let c ← value c
    if c % 4 = 0 then some [UInt8.ofNat (a * 4 + b / 16), UInt8.ofNat (b % 16 * 16 + c / 4)] else none
  | [a, b] => do
    let a ← value a
    let b ← value b
    if b % 16 = 0 then some [UInt8.ofNat (a * 4 + b / 16)] else none
  | [_] => none
  | [] => some []

/-- `base64::decode` (external, called in teerex/sgx-verify/src/lib.rs L528, L748 and
teerex/sgx-verify/src/netscape_comment.rs L58-61): the length must not be 1 modulo 4; the character `=` may stand only at
the third or fourth place of a group, and only `=` may follow it. -/
def decode (t : Bytes) : Option Bytes :=
  let s := t.takeWhile (· ≠ 61)
  let p := t.dropWhile (· ≠ 61)
  if t.length % 4 ≠ 1 ∧ (∀ c ∈ p, c = 61) ∧ (∀ i < p.length, 2 ≤ (s.length + i) % 4) then decodeSymbols s else none

end Verif.Base64
