import Verif.Model.SgxVerify
import Verif.Spec.Der

/-!
# Base64

The encoding of RFC 4648, section 4, by groups of three bytes. Nothing here refers to a decoder.
-/

namespace Verif

namespace B64

/-- The alphabet in the order of the values. -/
def alphabet : Bytes := Der.ascii "ABCDEFGHIJKLMNOPQRSTUVWXYZabcdefghijklmnopqrstuvwxyz0123456789+/"

/-- The symbol of a value below 64. -/
def symbol (n : Nat) : UInt8 := alphabet.getD n 0

/-- The symbols of some bytes: 24 bits are four symbols; missing bits of the last symbol are zero. -/
def symbols : Bytes → Bytes
  | x :: y :: z :: r =>
    let n := x.toNat * 65536 + y.toNat * 256 + z.toNat
    symbol (n / 262144) :: symbol (n / 4096 % 64) :: symbol (n / 64 % 64) :: symbol (n % 64) :: symbols r
  | [x, y] =>
    let n := (x.toNat * 256 + y.toNat) * 4
    [symbol (n / 4096), symbol (n / 64 % 64), symbol (n % 64)]
  | [x] =>
    let n := x.toNat * 16
    [symbol (n / 64), symbol (n % 64)]
  | [] => []

/-- How many characters `=` make the text a multiple of four. -/
def padding (b : Bytes) : Nat := if b.length % 3 = 1 then 2 else if b.length % 3 = 2 then 1 else 0

/-- `t` is the text of the bytes `b`. Padding may be left out, in full or in part. -/
def IsText (t b : Bytes) : Prop := ∃ p, p ≤ padding b ∧ t = symbols b ++ List.replicate p 61

/-- The text with full padding, as RFC 4648 has it. -/
def text (b : Bytes) : Bytes := symbols b ++ List.replicate (padding b) 61

/-- `chain` is a chain of certificates in the textual form of RFC 7468, section 5: between two markers the text of each
certificate, on lines of any length; `eol` ends the lines. -/
inductive IsPem (eol : Bytes) : (chain : Bytes) → (certs : List Bytes) → Prop
  | nil : IsPem eol [] []
  | cons (lines : List Bytes) (cert rest : Bytes) (certs : List Bytes) (hne : cert ≠ []) (ht : IsText lines.flatten cert)
      (hr : IsPem eol rest certs) :
      IsPem eol (Der.ascii "-----BEGIN CERTIFICATE-----" ++ eol ++ lines.flatMap (· ++ eol) ++
        Der.ascii "-----END CERTIFICATE-----" ++ eol ++ rest) (cert :: certs)

/-- The ends of lines in RFC 7468: line feed, carriage return, or both. -/
def lineEnds : List Bytes := [[10], [13], [13, 10]]

/-- The certificate `der` of an enclave carries, in its Netscape comment, the text of a report, and in Base64 its signature
and the certificate of the signer. Nothing like the comment's identifier comes before it; DER gives lengths from 256 to
65535 in two bytes (see C85 for other lengths). -/
def Carries (der report sig cert : Bytes) : Prop :=
  ∃ pre post s k body, IsText s sig ∧ IsText k cert ∧ body = report ++ [124] ++ s ++ [124] ++ k ∧ 124 ∉ report ∧
    256 ≤ body.length ∧ body.length < 65536 ∧
    der = pre ++ nsCmtOid ++ [4] ++ Der.lengthBytes body.length ++ body ++ post ∧
    ∀ p q, der = p ++ nsCmtOid ++ q → pre.length ≤ p.length

end B64

/-- The Base64 reader reads exactly the texts of RFC 4648 with the standard alphabet, padding optional. -/
def ReadsBase64 (x : Ext) : Prop := ∀ t b, x.base64 t = some b ↔ B64.IsText t b

end Verif
