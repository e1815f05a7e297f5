import Verif.Spec.Collateral
import Verif.Spec.JsonText

/-!
# Documents that differ in how the letters of strings are written
-/

namespace Verif

mutual
/-- The document with all strings written without escape sequences. -/
def Json.plain : Json → Json
  | .str s _ => .str s false
  | .arr l => .arr (Json.plainAll l)
  | .obj l => .obj (Json.plainMembers l)
  | .null => .null
  | .bool b => .bool b
  | .int n => .int n
  | .num => .num

/-- The same for the elements of an array. -/
def Json.plainAll : List Json → List Json
  | [] => []
  | j :: l => j.plain :: Json.plainAll l

/-- The same for the members of an object; the names are already letters. -/
def Json.plainMembers : List (String × Json) → List (String × Json)
  | [] => []
  | (n, j) :: l => (n, j.plain) :: Json.plainMembers l
end

/-- The members of signed documents that are written in hexadecimal digits. -/
def hexMembers : List String := ["fmspc", "miscselect", "miscselectMask", "attributes", "attributesMask", "mrsigner"]

/-- The members of a document with all strings written without escape sequences, except in the members written in
hexadecimal digits. -/
def unescaped (l : List (String × Json)) : List (String × Json) :=
  l.map fun m => (m.1, if m.1 ∈ hexMembers then m.2 else m.2.plain)

/-- The members that may be absent, see the fields of type `Option` in teerex/sgx-verify/src/collateral.rs L46-86. -/
def optionalMembers : List String := ["advisoryIDs", "category", "type"]

/-- The value is null. -/
def Json.IsNull : Json → Bool
  | .null => true
  | _ => false

/-- The object is a level or a component of one. -/
def isLevelPart (l : List (String × Json)) : Bool := l.any fun m => m.1 == "tcb" || m.1 == "svn"

/-- A value that the optional member can have: null, a list of advisories, the text of a category or type. -/
def optionalValue (n : String) (v : Json) : Bool :=
  optionalMembers.contains n && match v with
    | .null => true
    | .str _ _ => n == "category" || n == "type"
    | .arr l => n == "advisoryIDs" && l.all fun i => match i with | .str _ _ => true | _ => false
    | _ => false

/-- The optional members with certain values are taken out of a level or component, unless they are repeated. -/
def dropMembers (drop : String → Json → Bool) (l : List (String × Json)) : List (String × Json) :=
  if isLevelPart l then
    l.filter fun m => !(optionalMembers.contains m.1 && drop m.1 m.2 && (l.filter fun x => x.1 == m.1).length == 1)
  else l

mutual
/-- The document in which optional members with certain values are left out. -/
def Json.without (drop : String → Json → Bool) : Json → Json
  | .arr l => .arr (Json.withoutAll drop l)
  | .obj l => .obj (dropMembers drop (Json.withoutMembers drop l))
  | .str s e => .str s e
  | .null => .null
  | .bool b => .bool b
  | .int n => .int n
  | .num => .num

/-- The same for the elements of an array. -/
def Json.withoutAll (drop : String → Json → Bool) : List Json → List Json
  | [] => []
  | j :: l => j.without drop :: Json.withoutAll drop l

/-- The same for the values of the members of an object. -/
def Json.withoutMembers (drop : String → Json → Bool) : List (String × Json) → List (String × Json)
  | [] => []
  | (n, j) :: l => (n, j.without drop) :: Json.withoutMembers drop l
end

/-- The document in which optional members that are null are left out instead. -/
def Json.withoutNulls (j : Json) : Json := j.without fun _ v => v.IsNull

/-- The document in which the optional members are left out. -/
def Json.withoutOptional (j : Json) : Json := j.without optionalValue

/-- `j` is the document `d` up to the order of members, members that the code does not know, and the advisories, categories
and types, which `d` does not have. -/
def Describes (j d : Json) : Prop := ∃ i, SameContents collateralMembers j i ∧ i.withoutOptional = d

/-- The text says what is in the document `d`: in any layout, with members in any order, and with members that are not in `d`. -/
def TextOf (b : Bytes) (d : Json) : Prop := ∃ j, Spelling.Spells b j ∧ Describes j d

end Verif
