import Verif.Model.SgxVerify
import Verif.Spec.JsonText

/-!
# Calendar dates and their text form

The Gregorian calendar by counting days; nothing here refers to a reader of dates.
-/

namespace Verif

/-- A date and time of day, in UTC. -/
structure CivilTime where
  year : Nat
  month : Nat
  day : Nat
  hour : Nat
  minute : Nat
  second : Nat
  deriving DecidableEq

namespace CivilTime

/-- Leap years: divisible by 4, but not by 100 unless by 400. -/
def leap (y : Nat) : Bool := y % 4 == 0 && (y % 100 != 0 || y % 400 == 0)

/-- Number of days of a month; 0 if there is no such month. -/
def monthLength (y m : Nat) : Nat :=
  if m = 2 then (if leap y then 29 else 28) else [0, 31, 0, 31, 30, 31, 30, 31, 31, 30, 31, 30, 31].getD m 0

/-- Number of days of a year. -/
def yearLength (y : Nat) : Nat := if leap y then 366 else 365

/-- Number of days of the years 0 to `y - 1`. -/
def daysBeforeYear : Nat → Nat
  | 0 => 0
  | y + 1 => daysBeforeYear y + yearLength y

/-- Number of days of the months 1 to `m - 1`. -/
def daysBeforeMonth (y : Nat) : Nat → Nat
  | 0 => 0
  | m + 1 => daysBeforeMonth y m + monthLength y m

/-- The date exists, has a year of four digits, and the time is not a leap second. -/
def Valid (c : CivilTime) : Prop :=
  c.year < 10000 ∧ 1 ≤ c.month ∧ c.month ≤ 12 ∧ 1 ≤ c.day ∧ c.day ≤ monthLength c.year c.month ∧ c.hour < 24 ∧ c.minute < 60 ∧
    c.second < 60

instance (c : CivilTime) : Decidable c.Valid := by unfold Valid; infer_instance

/-- Days since the first of January of year 0. -/
def dayNumber (c : CivilTime) : Nat := daysBeforeYear c.year + daysBeforeMonth c.year c.month + (c.day - 1)

/-- Seconds since the first of January 1970. -/
def seconds (c : CivilTime) : Int :=
  (((c.dayNumber : Int) - (daysBeforeYear 1970 : Int)) * 24 + c.hour) * 3600 + c.minute * 60 + c.second

/-- Earlier on the calendar and the clock. -/
def Before (a b : CivilTime) : Prop :=
  a.year < b.year ∨ a.year = b.year ∧ (a.month < b.month ∨ a.month = b.month ∧ (a.day < b.day ∨ a.day = b.day ∧
    (a.hour < b.hour ∨ a.hour = b.hour ∧ (a.minute < b.minute ∨ a.minute = b.minute ∧ a.second < b.second))))

instance (a b : CivilTime) : Decidable (a.Before b) := by unfold Before; infer_instance

/-- A decimal digit. -/
def digit (n : Nat) : Char := Char.ofNat (48 + n % 10)

/-- Two decimal digits. -/
def two (n : Nat) : List Char := [digit (n / 10), digit n]

/-- Four decimal digits. -/
def four (n : Nat) : List Char := [digit (n / 1000), digit (n / 100), digit (n / 10), digit n]

/-- "YYYY-MM-DDThh:mm:ss". -/
def stamp (c : CivilTime) : List Char :=
  four c.year ++ '-' :: two c.month ++ '-' :: two c.day ++ 'T' :: two c.hour ++ ':' :: two c.minute ++ ':' :: two c.second

/-- The form in which Intel publishes dates: "YYYY-MM-DDThh:mm:ssZ". -/
def text (c : CivilTime) : String := String.ofList (c.stamp ++ ['Z'])

/-- The form of the time in attestation reports, "YYYY-MM-DDThh:mm:ss" and a fraction of a second. -/
def reportText (c : CivilTime) (fraction : List Char) : String := String.ofList (c.stamp ++ fraction)

end CivilTime

/-- The external reader of dates understands the form in which Intel publishes them. Nothing is assumed about other
forms. -/
def ReadsDates (x : Ext) : Prop := ∀ c : CivilTime, c.Valid → x.parseDate c.text = some (c.seconds * 1000)

/-- The external reader of times understands the form used in attestation reports followed by the offset zero. -/
def ReadsTimes (x : Ext) : Prop := ∀ (c : CivilTime) (f : List Char), c.Valid → Spelling.Fraction f →
  f.length ≤ 10 → x.parseTime (c.reportText f ++ "+0000") = some c.seconds

/-- The external reader of JSON reads the spellings of the grammar and nothing else. -/
def ReadsJson (x : Ext) : Prop := ∀ b j, x.json b = some j ↔ Spelling.Spells b j

end Verif
