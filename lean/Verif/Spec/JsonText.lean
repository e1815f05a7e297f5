import Verif.Model.Json

/-!
# Grammar of JSON texts

RFC 8259, as relations between trees and their spellings. Nothing here refers to the reader.
-/

namespace Verif

namespace Spelling

/-- White space. -/
def Ws (t : List Char) : Prop := ∀ c ∈ t, c ∈ [' ', '\n', '\t', '\r']

/-- Decimal digits. -/
def Digits (t : List Char) : Prop := t ≠ [] ∧ ∀ c ∈ t, c ∈ "0123456789".toList

/-- The number that decimal digits stand for. -/
def decimal : List Char → Nat
  | [] => 0
  | c :: t => (c.toNat - '0'.toNat) * 10 ^ t.length + decimal t

/-- Digits of a whole number: no leading zero. -/
def Whole (t : List Char) : Prop := Digits t ∧ (t.length = 1 ∨ t.head? ≠ some '0')

/-- A fraction, possibly empty. -/
def Fraction (t : List Char) : Prop := t = [] ∨ ∃ ds, Digits ds ∧ t = '.' :: ds

/-- An exponent, possibly empty. -/
def Exponent (t : List Char) : Prop :=
  t = [] ∨ ∃ e sign ds, (e = 'e' ∨ e = 'E') ∧ (sign = [] ∨ sign = ['+'] ∨ sign = ['-']) ∧ Digits ds ∧ t = e :: sign ++ ds

/-- Spellings of numbers. Whole numbers of 64 bits, unsigned or negative, are kept; all others are floating point
numbers, whose value no document of this project uses. -/
inductive IsNumber : Json → List Char → Prop
  | nat (ds : List Char) (h : Whole ds) (hb : decimal ds < 2 ^ 64) : IsNumber (.int (decimal ds)) ds
  | neg (ds : List Char) (h : Whole ds) (h0 : decimal ds ≠ 0) (hb : decimal ds ≤ 2 ^ 63) :
      IsNumber (.int (-(decimal ds : Int))) ('-' :: ds)
  | large (ds : List Char) (h : Whole ds) (hb : 2 ^ 64 ≤ decimal ds) : IsNumber .num ds
  | negOther (ds : List Char) (h : Whole ds) (hb : decimal ds = 0 ∨ 2 ^ 63 < decimal ds) : IsNumber .num ('-' :: ds)
  | float (sign ds f e : List Char) (hs : sign = [] ∨ sign = ['-']) (h : Whole ds) (hf : Fraction f) (he : Exponent e)
      (hne : f ≠ [] ∨ e ≠ []) : IsNumber .num (sign ++ ds ++ f ++ e)

/-- Value of a hexadecimal digit, in either letter case. -/
inductive HexDigit : Char → Nat → Prop
  | lower (n : Nat) (c : Char) (h : "0123456789abcdef".toList[n]? = some c) : HexDigit c n
  | upper (n : Nat) (c : Char) (h : "0123456789ABCDEF".toList[n]? = some c) : HexDigit c n

/-- Value of four hexadecimal digits. -/
inductive Hex4 : List Char → Nat → Prop
  | mk (a b c d : Char) (i j k l : Nat) (ha : HexDigit a i) (hb : HexDigit b j) (hc : HexDigit c k) (hd : HexDigit d l) :
      Hex4 [a, b, c, d] (((i * 16 + j) * 16 + k) * 16 + l)

/-- The short escape sequences. -/
def shortEscapes : List (Char × Nat) :=
  [('"', 0x22), ('\\', 0x5c), ('/', 0x2f), ('b', 8), ('f', 12), ('n', 10), ('r', 13), ('t', 9)]

/-- Spellings of one character of a string; the flag tells whether it is an escape sequence. -/
inductive IsChar : Char → Bool → List Char → Prop
  | plain (c : Char) (h1 : c ≠ '"') (h2 : c ≠ '\\') (h3 : 0x20 ≤ c.toNat) : IsChar c false [c]
  | short (c k : Char) (h : (k, c.toNat) ∈ shortEscapes) : IsChar c true ['\\', k]
  | unit (c : Char) (t : List Char) (h : Hex4 t c.toNat) : IsChar c true ('\\' :: 'u' :: t)
  | pair (c : Char) (t u : List Char) (hi lo : Nat) (h1 : Hex4 t (0xd800 + hi)) (h2 : Hex4 u (0xdc00 + lo))
      (b1 : hi < 0x400) (b2 : lo < 0x400) (h : c.toNat = 0x10000 + hi * 0x400 + lo) :
      IsChar c true ('\\' :: 'u' :: t ++ '\\' :: 'u' :: u)

/-- Spellings of the characters of a string; the flag tells whether there is an escape sequence among them. -/
inductive IsChars : List Char → Bool → List Char → Prop
  | nil : IsChars [] false []
  | cons (c : Char) (e : Bool) (t : List Char) (l : List Char) (e' : Bool) (u : List Char) (h : IsChar c e t)
      (hl : IsChars l e' u) : IsChars (c :: l) (e || e') (t ++ u)

/-- Spellings of the elements of an array, given the spellings of values. -/
inductive IsElements (P : Json → List Char → Prop) : List Json → List Char → Prop
  | one (j : Json) (v t w : List Char) (hv : Ws v) (h : P j t) (hw : Ws w) : IsElements P [j] (v ++ t ++ w)
  | more (j : Json) (v t w : List Char) (l : List Json) (u : List Char) (hv : Ws v) (h : P j t) (hw : Ws w)
      (hl : IsElements P l u) : IsElements P (j :: l) (v ++ t ++ w ++ ',' :: u)

/-- Spellings of the name of a member, with its colon and the white space around. -/
inductive IsName : String → List Char → Prop
  | mk (l : List Char) (e : Bool) (v t w x : List Char) (hv : Ws v) (h : IsChars l e t) (hw : Ws w) (hx : Ws x) :
      IsName (String.ofList l) (v ++ '"' :: t ++ '"' :: w ++ ':' :: x)

/-- Spellings of the members of an object, given the spellings of values. -/
inductive IsMembers (P : Json → List Char → Prop) : List (String × Json) → List Char → Prop
  | one (n : String) (j : Json) (m t w : List Char) (hn : IsName n m) (h : P j t) (hw : Ws w) :
      IsMembers P [(n, j)] (m ++ t ++ w)
  | more (n : String) (j : Json) (m t w : List Char) (l : List (String × Json)) (u : List Char) (hn : IsName n m) (h : P j t)
      (hw : Ws w) (hl : IsMembers P l u) : IsMembers P ((n, j) :: l) (m ++ t ++ w ++ ',' :: u)

/-- Spellings of values without brackets. -/
inductive IsScalar : Json → List Char → Prop
  | null : IsScalar .null "null".toList
  | true : IsScalar (.bool Bool.true) "true".toList
  | false : IsScalar (.bool Bool.false) "false".toList
  | str (l : List Char) (e : Bool) (t : List Char) (h : IsChars l e t) :
      IsScalar (.str (String.ofList l) e) ('"' :: t ++ ['"'])
  | number (j : Json) (t : List Char) (h : IsNumber j t) : IsScalar j t

/-- Spellings of arrays and objects, given the spellings of the values in them. -/
inductive IsBracket (P : Json → List Char → Prop) : Json → List Char → Prop
  | noElements (w : List Char) (h : Ws w) : IsBracket P (.arr []) ('[' :: w ++ [']'])
  | elements (l : List Json) (t : List Char) (h : IsElements P l t) : IsBracket P (.arr l) ('[' :: t ++ [']'])
  | noMembers (w : List Char) (h : Ws w) : IsBracket P (.obj []) ('{' :: w ++ ['}'])
  | members (l : List (String × Json)) (t : List Char) (h : IsMembers P l t) : IsBracket P (.obj l) ('{' :: t ++ ['}'])

/-- Spellings of values in which brackets are nested at most `depth` deep. -/
def IsValue : (depth : Nat) → Json → List Char → Prop
  | 0, j, t => IsScalar j t
  | depth + 1, j, t => IsScalar j t ∨ IsBracket (IsValue depth) j t

/-- The bytes of a text in UTF-8. -/
def utf8 (t : List Char) : Bytes := t.flatMap String.utf8EncodeChar

/-- The bytes are a spelling of the tree: a value in which at most 127 brackets are nested, with white space around. -/
def Spells (b : Bytes) (j : Json) : Prop :=
  ∃ v t w, Ws v ∧ IsValue 127 j t ∧ Ws w ∧ b = utf8 (v ++ t ++ w)

end Spelling

end Verif
