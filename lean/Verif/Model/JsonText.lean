import Verif.Model.Json

/-!
# JSON text

The syntax read by `serde_json::from_slice` (crate serde_json 1.0.114, external), called in
teerex/sgx-verify/src/lib.rs L491, L509 and L711. The source of the crate is not part of /repo; the definitions
below are the trusted description of what it reads, from text to the trees of `Model/Json`.

Simplifications: the text is decoded from UTF-8 as a whole, whereas serde_json does not look at the encoding of
strings that nobody wants (unknown members); the nesting limit and the reading of escape sequences are likewise
applied to unwanted members; numbers that are too large for `f64` are accepted. So a text that the model reads is
read by serde_json as the same tree unless it contains such a number, and only texts with malformed unwanted
members are refused by the model alone.
-/

namespace Verif

namespace JsonText

/-- A continuation byte of UTF-8 gives six bits (external: `core::str::from_utf8`). -/
def contBits (b : UInt8) : Option Nat := if 128 ≤ b.toNat ∧ b.toNat < 192 then some (b.toNat - 128) else none

/-- `core::str::from_utf8` (external; called by serde_json for the strings of teerex/sgx-verify/src/lib.rs L491, L509,
L711): shortest forms only, no surrogates, nothing above U+10FFFF. -/
def decodeUtf8 : Bytes → Option (List Char)
  | [] => some []
  | a :: r =>
    if a.toNat < 128 then (decodeUtf8 r).map (Char.ofNat a.toNat :: ·)
    else match r with
    | [] => none
    | b :: r =>
      if 192 ≤ a.toNat ∧ a.toNat < 224 then do
        let x ← contBits b
        let n := (a.toNat - 192) * 64 + x
        if 128 ≤ n then (decodeUtf8 r).map (Char.ofNat n :: ·) else none
      else match r with
      | [] => none
      | c :: r =>
        if 224 ≤ a.toNat ∧ a.toNat < 240 then do
          let x ← contBits b
          let y ← contBits c
          let n := (a.toNat - 224) * 4096 + x * 64 + y
          if 2048 ≤ n ∧ (n < 55296 ∨ 57343 < n) then (decodeUtf8 r).map (Char.ofNat n :: ·) else none
        else match r with
        | [] => none
        | d :: r =>
          if 240 ≤ a.toNat ∧ a.toNat < 248 then do
            let x ← contBits b
            let y ← contBits c
            let z ← contBits d
            let n := (a.toNat - 240) * 262144 + x * 4096 + y * 64 + z
            if 65536 ≤ n ∧ n < 1114112 then (decodeUtf8 r).map (Char.ofNat n :: ·) else none
          else none

/-- White space (external: `Deserializer::parse_whitespace` of serde_json). -/
def isWs (c : Char) : Bool := c == ' ' || c == '\n' || c == '\t' || c == '\r'

/-- Skips white space (external: `Deserializer::parse_whitespace` of serde_json). -/
def skipWs (t : List Char) : List Char := t.dropWhile isWs

/-- A decimal digit (external: serde_json). -/
def isDigit (c : Char) : Bool := decide (48 ≤ c.toNat) && decide (c.toNat ≤ 57)

/-- Value of a sequence of decimal digits (external: serde_json). -/
def digitsValue (l : List Char) : Nat := l.foldl (fun n c => n * 10 + (c.toNat - 48)) 0

/-- Value of a hexadecimal digit (external: `decode_hex_val` of serde_json). -/
def hexDigit (c : Char) : Option Nat :=
  if 48 ≤ c.toNat ∧ c.toNat ≤ 57 then some (c.toNat - 48)
  else if 97 ≤ c.toNat ∧ c.toNat ≤ 102 then some (c.toNat - 87)
  else if 65 ≤ c.toNat ∧ c.toNat ≤ 70 then some (c.toNat - 55)
  else none

/-- Four hexadecimal digits (external: `Read::decode_hex_escape` of serde_json). -/
def hex4 : List Char → Option (Nat × List Char)
  | a :: b :: c :: d :: r => do
    let a ← hexDigit a
    let b ← hexDigit b
    let c ← hexDigit c
    let d ← hexDigit d
    some (a * 4096 + b * 256 + c * 16 + d, r)
  | _ => none

/-- What follows a backslash (external: `parse_escape` of serde_json): the character and the rest. A high surrogate must
be followed by the escape of a low one, other surrogates are errors. -/
def escape : List Char → Option (Char × List Char)
  | '"' :: r => some ('"', r)
  | '\\' :: r => some ('\\', r)
  | '/' :: r => some ('/', r)
  | 'b' :: r => some (Char.ofNat 8, r)
  | 'f' :: r => some (Char.ofNat 12, r)
  | 'n' :: r => some ('\n', r)
  | 'r' :: r => some ('\r', r)
  | 't' :: r => some ('\t', r)
  | 'u' :: r => do
    let (n, r) ← hex4 r
    if n < 55296 ∨ 57343 < n then some (Char.ofNat n, r)
    else if n < 56320 then
      match r with
      | '\\' :: 'u' :: r => do
        let (m, r) ← hex4 r
        if 56320 ≤ m ∧ m ≤ 57343 then some (Char.ofNat (65536 + (n - 55296) * 1024 + (m - 56320)), r) else none
      | _ => none
    else none
  | _ => none

/-- A string after its opening quote (external: `SliceRead::parse_str`): characters, whether there was an escape
sequence, and the rest. Control characters are errors. The first argument bounds the number of characters. -/
def chars : Nat → List Char → Option (List Char × Bool × List Char)
  | 0, _ => none
  | _, [] => none
  | fuel + 1, c :: r =>
    if c = '"' then some ([], false, r)
    else if c = '\\' then do
      let (x, r) ← escape r
      let (l, _, r) ← chars fuel r
      some (x :: l, true, r)
    else if c.toNat < 32 then none
    else do
      let (l, e, r) ← chars fuel r
      some (c :: l, e, r)

/-- A string after its opening quote (external: `Deserializer::deserialize_str` of serde_json). -/
def string (t : List Char) : Option (String × Bool × List Char) := do
  let (l, e, r) ← chars t.length t
  some (String.ofList l, e, r)

/-- Digits after a point (external: `parse_decimal` of serde_json): at least one. -/
def fraction (t : List Char) : Option (Bool × List Char) :=
  match t with
  | '.' :: r => if (r.takeWhile isDigit).isEmpty then none else some (true, r.dropWhile isDigit)
  | _ => some (false, t)

/-- An exponent (external: `parse_exponent` of serde_json): at least one digit after an optional sign. -/
def exponent (t : List Char) : Option (Bool × List Char) :=
  let digits (r : List Char) : Option (Bool × List Char) :=
    if (r.takeWhile isDigit).isEmpty then none else some (true, r.dropWhile isDigit)
  match t with
  | c :: r =>
    if c = 'e' ∨ c = 'E' then
      match r with
      | s :: r' => if s = '+' ∨ s = '-' then digits r' else digits r
      | [] => none
    else some (false, t)
  | [] => some (false, t)

/-- The tree of an integer literal (external: `parse_integer`, `parse_number` of serde_json): integers that do not fit
`u64` or `i64`, and minus zero, become floating point numbers. -/
def intTree (neg : Bool) (n : Nat) : Json :=
  if neg then (if 0 < n ∧ n ≤ 2 ^ 63 then .int (-(n : Int)) else .num)
  else if n < 2 ^ 64 then .int n else .num

/-- A number after its sign (external: `parse_integer` of serde_json): no leading zeros. -/
def number (neg : Bool) (t : List Char) : Option (Json × List Char) := do
  let ds := t.takeWhile isDigit
  if ds.isEmpty ∨ (ds.head? = some '0' ∧ 1 < ds.length) then none
  else do
    let (f, r) ← fraction (t.dropWhile isDigit)
    let (e, r) ← exponent r
    some (if f || e then .num else intTree neg (digitsValue ds), r)

/-- The elements of an array after the first bracket or a comma (external: `SeqAccess` of serde_json). The first
argument bounds their number. -/
def elements (p : List Char → Option (Json × List Char)) : Nat → List Char → Option (List Json × List Char)
  | 0, _ => none
  | fuel + 1, t => do
    let (j, r) ← p (skipWs t)
    match skipWs r with
    | ',' :: r => do
      let (l, r) ← elements p fuel r
      some (j :: l, r)
    | ']' :: r => some ([j], r)
    | _ => none

/-- The members of an object after the first brace or a comma (external: `MapAccess` of serde_json). -/
def members (p : List Char → Option (Json × List Char)) : Nat → List Char → Option (List (String × Json) × List Char)
  | 0, _ => none
  | fuel + 1, t =>
    match skipWs t with
    | '"' :: r => do
      let (name, _, r) ← string r
      match skipWs r with
      | ':' :: r => do
        let (j, r) ← p (skipWs r)
        match skipWs r with
        | ',' :: r => do
          let (l, r) ← members p fuel r
          some ((name, j) :: l, r)
        | '}' :: r => some ([(name, j)], r)
        | _ => none
      | _ => none
    | _ => none

/-- An array after its bracket (external: `deserialize_any`/`SeqAccess` of serde_json). -/
def array (p : List Char → Option (Json × List Char)) (t : List Char) : Option (Json × List Char) :=
  match skipWs t with
  | ']' :: r => some (.arr [], r)
  | _ => do
    let (l, r) ← elements p t.length t
    some (.arr l, r)

/-- An object after its brace (external: `deserialize_any`/`MapAccess` of serde_json). -/
def object (p : List Char → Option (Json × List Char)) (t : List Char) : Option (Json × List Char) :=
  match skipWs t with
  | '}' :: r => some (.obj [], r)
  | _ => do
    let (l, r) ← members p t.length t
    some (.obj l, r)

/-- One value (external: `deserialize_any` of serde_json), starting at its first character. The first argument is the
number of brackets that may still be opened. -/
def value : Nat → List Char → Option (Json × List Char)
  | _, 'n' :: 'u' :: 'l' :: 'l' :: r => some (.null, r)
  | _, 't' :: 'r' :: 'u' :: 'e' :: r => some (.bool true, r)
  | _, 'f' :: 'a' :: 'l' :: 's' :: 'e' :: r => some (.bool false, r)
  | _, '"' :: r => do
    let (s, e, r) ← string r
    some (.str s e, r)
  | depth + 1, '[' :: r => array (value depth) r
  | depth + 1, '{' :: r => object (value depth) r
  | _, '-' :: r => number true r
  | _, t => number false t

/-- How deep values may be nested (external: `remaining_depth` of serde_json starts with 128 and must not reach 0). -/
def maxDepth : Nat := 127

/-- `serde_json::from_slice` down to the tree (external; called in teerex/sgx-verify/src/lib.rs L491, L509, L711): one
value, with white space around it and nothing else. -/
def parse (b : Bytes) : Option Json := do
  let t ← decodeUtf8 b
  let (j, r) ← value maxDepth (skipWs t)
  if skipWs r = [] then some j else none

end JsonText

end Verif
