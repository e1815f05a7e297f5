import Verif.Spec.Calendar
import Verif.Model.JsonText

/-!
# Texts of dates

Readers for the forms of dates that occur in collateral and attestation reports. They stand for chrono 0.4.31
(external; teerex/sgx-verify/src/collateral.rs L51, L81, L93-94, L169-170 and teerex/sgx-verify/src/lib.rs L719), which
accepts further forms: other offsets, other separators and signs. Theorems do not use these readers, they assume of
the external functions only `ReadsDates` and `ReadsTimes`; the readers show that these assumptions can be met.
-/

namespace Verif

namespace DateText

open CivilTime

/-- The value of decimal digits (external: chrono, teerex/sgx-verify/src/lib.rs L719). -/
def digits (l : List Char) : Option Nat :=
  if l.all JsonText.isDigit then some (JsonText.digitsValue l) else none

/-- "YYYY-MM-DDThh:mm:ss" and the rest (external: chrono, teerex/sgx-verify/src/lib.rs L719). -/
def stamp? (t : List Char) : Option (CivilTime × List Char) :=
  match t with
  | y1 :: y2 :: y3 :: y4 :: '-' :: m1 :: m2 :: '-' :: d1 :: d2 :: 'T' :: h1 :: h2 :: ':' :: n1 :: n2 :: ':' :: s1 :: s2 :: r => do
    let year ← digits [y1, y2, y3, y4]
    let month ← digits [m1, m2]
    let day ← digits [d1, d2]
    let hour ← digits [h1, h2]
    let minute ← digits [n1, n2]
    let second ← digits [s1, s2]
    let c : CivilTime := { year, month, day, hour, minute, second }
    if c.Valid then some (c, r) else none
  | _ => none

/-- Text form of a `DateTime<Utc>` to milliseconds (external: chrono, teerex/sgx-verify/src/collateral.rs L51, L81,
L93-94, L169-170). Simplified: only the form with the letter Z. -/
def readDate (s : String) : Option Int :=
  match stamp? s.toList with
  | some (c, ['Z']) => some (c.seconds * 1000)
  | _ => none

/-- `DateTime::parse_from_str` with the format "%Y-%m-%dT%H:%M:%S%.f%z" to seconds (external: chrono,
teerex/sgx-verify/src/lib.rs L719). Simplified: only the offset "+0000", years of four digits and fractions of any
length. -/
def readTime (s : String) : Option Int :=
  match stamp? s.toList with
  | some (c, r) =>
    match JsonText.fraction r with
    | some (_, ['+', '0', '0', '0', '0']) => some c.seconds
    | _ => none
  | _ => none

end DateText

end Verif
