import Verif.Model.Runtime

/-!
# Specification vocabulary for the asset registry and XCM

The executor below describes, for the five instructions used, what the XCM executor of the relay chain (external)
does. It is only used to state what the program sent means.
-/

namespace Verif

/-- Locations that may identify an asset, in the sense of the XCM format: the chain itself, something ending in an
account, pallet or parachain, or an index directly below a pallet. -/
def IdentifiesAsset (l : Location) : Prop :=
  l.interior = [] ∨
  (∃ pre j, l.interior = pre ++ [j] ∧
    ((∃ n a, j = .accountId32 n a) ∨ (∃ n a, j = .accountKey20 n a) ∨ (∃ i, j = .palletInstance i) ∨
      ∃ i, j = .parachain i)) ∨
  ∃ pre p i, l.interior = pre ++ [.palletInstance p, .generalIndex i]

/-- Both lookups of the registry agree. -/
def RegistryInverse (s : Chain) : Prop := ∀ id loc, s.ar.idLoc id = some loc ↔ s.ar.locId loc = some id

/-- The registry is empty. -/
def RegistryEmpty (s : Chain) : Prop := (∀ id, s.ar.idLoc id = none) ∧ ∀ loc, s.ar.locId loc = none

/-- No location is registered while an asset is registered at it already. -/
def NoSharedLocation (p : Chain × Op) : Prop :=
  match p.2 with
  | .ext _ (.registerReserveAsset _ loc) => ∀ id, p.1.ar.idLoc id ≠ some loc
  | _ => True

/-- The four bytes of a 32 bit number, little-endian. -/
def le32 (n : Nat) : Bytes :=
  [UInt8.ofNat n, UInt8.ofNat (n / 2 ^ 8), UInt8.ofNat (n / 2 ^ 16), UInt8.ofNat (n / 2 ^ 24)]

/-- The program that asks the relay chain to swap two parachains: pay for the execution with the relay chain's token,
call the registrar (pallet 70, call 3) with the two ids, and return what is left to this parachain. -/
def swapProgram (own self other : Nat) (w : Nat × Nat) (fee : Nat) : Xcm :=
  [ .withdrawAsset [⟨⟨1, []⟩, .fungible fee⟩],
    .buyExecutionUnlimited ⟨⟨1, []⟩, .fungible fee⟩,
    .transact .native w ([70, 3] ++ le32 self ++ le32 other),
    .refundSurplus,
    .depositAssetAll ⟨1, [.parachain own]⟩ ]

/-! ### A chain executing XCM -/

/-- What the chain that executes a program knows: which location names its token, to which account a location
belongs, the price of executing a program, and the refund and success of a call. -/
structure Executor where
  isToken : Location → Bool
  account : Location → Option AccountId
  price : Nat
  refund : Bytes → Option Nat

/-- State of execution: balances, tokens in holding, refund due, calls dispatched. -/
structure Vm where
  free : AccountId → Nat
  holding : Nat
  due : Nat
  calls : List Bytes

/-- Execution of one instruction for an origin account; `none` is an error, after which the program stops. -/
def Executor.instr (x : Executor) (origin : AccountId) (v : Vm) : Instr → Option Vm
  | .withdrawAsset [⟨l, .fungible n⟩] =>
    if x.isToken l = true ∧ n ≤ v.free origin then
      some { v with free := upd v.free origin (v.free origin - n), holding := v.holding + n }
    else none
  | .withdrawAsset _ => none
  | .buyExecutionUnlimited ⟨l, .fungible n⟩ =>
    if x.isToken l = true ∧ n ≤ v.holding ∧ x.price ≤ n then some { v with holding := v.holding - x.price } else none
  | .buyExecutionUnlimited _ => none
  | .transact _ _ call =>
    match x.refund call with
    | some r => some { v with due := v.due + r, calls := v.calls ++ [call] }
    | none => none
  | .refundSurplus => some { v with holding := v.holding + v.due, due := 0 }
  | .depositAssetAll b =>
    match x.account b with
    | some a => some { v with free := upd v.free a (v.free a + v.holding), holding := 0 }
    | none => none

/-- Execution of a program: the state in which it stops and whether it ran to its end. What is then in holding is
trapped. -/
def Executor.run (x : Executor) (origin : AccountId) : Vm → Xcm → Vm × Bool
  | v, [] => (v, true)
  | v, i :: p =>
    match x.instr origin v i with
    | some v => x.run origin v p
    | none => (v, false)

/-- The relay chain: its token is itself (`Here`), and its parachains are `Parachain(id)` below it. Nothing above the
relay chain has an account there. -/
structure IsRelay (x : Executor) (sovereign : Nat → AccountId) : Prop where
  token : ∀ l, x.isToken l = true ↔ l = { parents := 0, interior := [] }
  para : ∀ id, x.account { parents := 0, interior := [.parachain id] } = some (sovereign id)
  above : ∀ l, l.parents ≠ 0 → x.account l = none

end Verif
