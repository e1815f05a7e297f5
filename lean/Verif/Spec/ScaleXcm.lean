import Verif.Spec.Scale

/-!
# Specification: the bytes of an XCM location

The layouts, written down directly from the declarations of XCM v4.
-/

namespace Verif

namespace Layout

/-- A network. -/
def network : NetworkId → Bytes
  | .byGenesis h => 0 :: h.val
  | .byFork n h => 1 :: (number 8 n ++ h.val)
  | .polkadot => [2]
  | .kusama => [3]
  | .westend => [4]
  | .rococo => [5]
  | .wococo => [6]
  | .ethereum i => 7 :: short i
  | .bitcoinCore => [8]
  | .bitcoinCash => [9]
  | .polkadotBulletin => [10]

/-- A governance body. -/
def body : BodyId → Bytes
  | .unit => [0]
  | .moniker n => 1 :: n.val
  | .index i => 2 :: short i
  | .executive => [3]
  | .technical => [4]
  | .legislative => [5]
  | .judicial => [6]
  | .defense => [7]
  | .administration => [8]
  | .treasury => [9]

/-- A part of a governance body. -/
def part : BodyPart → Bytes
  | .voice => [0]
  | .members n => 1 :: short n
  | .fraction n d => 2 :: (short n ++ short d)
  | .atLeastProportion n d => 3 :: (short n ++ short d)
  | .moreThanProportion n d => 4 :: (short n ++ short d)

/-- One step of a path. -/
def junction : Junction → Bytes
  | .parachain i => 0 :: short i
  | .accountId32 n a => 1 :: (option network n ++ a.val)
  | .accountIndex64 n i => 2 :: (option network n ++ short i)
  | .accountKey20 n a => 3 :: (option network n ++ a.val)
  | .palletInstance i => 4 :: number 1 i
  | .generalIndex i => 5 :: short i
  | .generalKey n d => 6 :: (number 1 n ++ d.val)
  | .onlyChild => [7]
  | .plurality i p => 8 :: (body i ++ part p)
  | .globalConsensus n => 9 :: network n

/-- A location: how many steps up, how many steps down, the steps down. -/
def location (l : Location) : Bytes :=
  number 1 l.parents ++ number 1 l.interior.length ++ (l.interior.map junction).flatten

end Layout

namespace Fits

/-- The numbers of a network are in range. -/
def network : NetworkId → Prop
  | .byFork n _ => number 8 n
  | .ethereum i => number 8 i
  | _ => True

/-- The number of a governance body is in range. -/
def body : BodyId → Prop
  | .index i => number 4 i
  | _ => True

/-- The numbers of a part of a governance body are in range. -/
def part : BodyPart → Prop
  | .voice => True
  | .members n => number 4 n
  | .fraction n d | .atLeastProportion n d | .moreThanProportion n d => number 4 n ∧ number 4 d

/-- The numbers of a step are in range. -/
def junction : Junction → Prop
  | .parachain i => number 4 i
  | .accountId32 n _ | .accountKey20 n _ => ∀ x, n = some x → network x
  | .accountIndex64 n i => (∀ x, n = some x → network x) ∧ number 8 i
  | .palletInstance i => number 1 i
  | .generalIndex i => number 16 i
  | .generalKey n _ => number 1 n
  | .onlyChild => True
  | .plurality i p => body i ∧ part p
  | .globalConsensus n => network n

/-- At most 255 steps up and eight steps down, with numbers in range. -/
def location (l : Location) : Prop :=
  number 1 l.parents ∧ l.interior.length ≤ 8 ∧ ∀ j ∈ l.interior, junction j

end Fits

end Verif
