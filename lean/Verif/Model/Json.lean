import Verif.Model.Hex

/-!
# JSON values and `serde`'s reading of basic types

JSON syntax is external (`Ext.json`, crate serde_json 1.0.114): it turns text into the tree below. How the tree is
turned into Rust values is what `#[derive(Deserialize)]` generates (external macro) from the type definitions in
/repo; the functions below are its building blocks.
-/

namespace Verif

/-- A JSON text as a tree (external: serde_json, used in teerex/sgx-verify/src/lib.rs L491, L509, L711). Objects keep
all members in order. `int` is an integer literal in the range of `i64`/`u64`; all other numbers are `num`. A string
remembers whether its text contained an escape sequence, because such a string cannot be read as a borrowed `&str`. -/
inductive Json where
  | null
  | bool (b : Bool)
  | int (n : Int)
  | num
  | str (s : String) (escaped : Bool)
  | arr (l : List Json)
  | obj (l : List (String × Json))

namespace Json

/-- `Deserialize` for an unsigned integer type with maximum `max` (external). -/
def uint (max : Nat) : Json → Option Nat
  | .int n => if 0 ≤ n ∧ n ≤ max then some n.toNat else none
  | _ => none

/-- `Deserialize for String` (external). -/
def string : Json → Option String
  | .str s _ => some s
  | _ => none

/-- `Deserialize for &str` (external): only strings that can be borrowed from the input. -/
def borrowed : Json → Option String
  | .str s false => some s
  | _ => none

/-- `Deserialize for Vec<T>` (external). -/
def vec {α : Type} (f : Json → Option α) : Json → Option (List α)
  | .arr l => l.mapM f
  | _ => none

/-- `Deserialize for [T; n]` (external): exactly `n` elements. -/
def array {α : Type} (n : Nat) (f : Json → Option α) : Json → Option { l : List α // l.length = n }
  | .arr l => (l.mapM f).bind fun r => if h : r.length = n then some ⟨r, h⟩ else none
  | _ => none

/-- One field of a struct read from an object (external): absent, present once, or given twice (an error). -/
def member (l : List (String × Json)) (name : String) : Option (Option Json) :=
  match l.filter (fun m => m.1 == name) with
  | [] => some none
  | [m] => some (some m.2)
  | _ => none

/-- The fields of a derived struct (external): members of an object, where unknown members are ignored and
known ones must not be repeated, or the elements of an array in the order of the fields. -/
def fields (names : List String) : Json → Option (List (Option Json))
  | .obj l => names.mapM (member l)
  | .arr l => if l.length = names.length then some (l.map some) else none
  | _ => none

/-- A mandatory field (external: serde_derive). -/
def req {α : Type} (f : Json → Option α) (o : Option Json) : Option α := o.bind f

/-- A field of type `Option<T>` (external): may be absent or null. -/
def opt {α : Type} (f : Json → Option α) : Option Json → Option (Option α)
  | none => some none
  | some .null => some none
  | some j => (f j).map some

/-- `Value::index` with a string (external; used in teerex/sgx-verify/src/lib.rs L716, L734, L747) followed by the
match on `Value::String`. Of repeated members the last one is kept in a `Value`. -/
def textMember (j : Json) (name : String) : Option String :=
  match j with
  | .obj l => ((l.filter (fun m => m.1 == name)).getLast?).bind fun m => m.2.string
  | _ => none

end Json

end Verif
