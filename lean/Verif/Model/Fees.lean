import Verif.Model.Runtime

/-!
# Which transactions are included in a block, and which of them cost a fee

Only whether a fee is due is modelled, not how much (for weights see `Weights.lean`), and not the payment of
the fee itself (pallet_transaction_payment, external). Nonces, the size limits of a block and the other signed
extensions of a runtime are outside of the repository and not modelled: they can only exclude more transactions.
-/

namespace Verif

/-- `Pays` in the `#[pallet::weight]` attributes, where a missing value means `Pays::Yes` (frame_support):
enclave-bridge/src/lib.rs L378 and claims/src/lib.rs L332-336 say `Pays::No`; teerex/src/lib.rs L294, L449, L473, L497,
L519, L539, enclave-bridge/src/lib.rs L161, L171, L205, L231, L281, L316, sidechain/src/lib.rs L92,
teeracle/src/lib.rs L149, L169, L188, L219 say `Pays::Yes`; claims/src/lib.rs L214, L247, L295, L349,
teerdays/src/lib.rs L173, L198, L228, L275, L284, asset-registry/src/lib.rs L98, L128 and xcm-transactor/src/lib.rs
L126 say nothing. -/
def Call.declaredFree : Call → Bool
  | .purgeEnclave _ _ => true
  | .claims (.attest _) => true
  | _ => false

/-- The post dispatch information of a successful call, claims/src/lib.rs L377: `Ok(Pays::No.into())`. All other
calls return `Ok(())` or `Ok(().into())`, which keeps the declared value. -/
def Call.waivesFee : Call → Bool
  | .claims (.moveClaim _ _ _) => true
  | _ => false

/-- A transaction (external: `UncheckedExtrinsic` of sp_runtime): signed by an account, or bare (without signature
and fee). -/
inductive Tx where
  | signed (who : AccountId) (k : Call)
  | bare (k : Call)
  deriving DecidableEq

/-- The origin of the call of a transaction (external: the `Checkable` and `Applyable` traits of sp_runtime). -/
def Tx.origin : Tx → Origin
  | .signed who _ => .signed who
  | .bare _ => .none

/-- The call of a transaction (external, see `Tx`). -/
def Tx.call : Tx → Call
  | .signed _ k => k
  | .bare k => k

/-- Is it a bare transaction (external, see `Tx`)? -/
def Tx.isBare : Tx → Bool
  | .signed _ _ => false
  | .bare _ => true

/-- Is the transaction included in a block? Signed ones pass `PrevalidateAttests` (claims/src/lib.rs L564-594, for
calls of other pallets without a check), bare ones pass `ValidateUnsigned` of pallet claims (claims/src/lib.rs
L385-429); the other modelled pallets do not implement it, so their bare transactions are refused (external: the
`ValidateUnsigned` of the runtime, generated by construct_runtime). -/
def Tx.included (c : Cfg) (s : Chain) : Tx → Bool
  | .signed who (.claims k) => (Claims.prevalidate s who k).isOk
  | .signed _ _ => true
  | .bare (.claims k) => (Claims.validateUnsigned c s k).isOk
  | .bare _ => false

/-- What a transaction did (external: `apply_extrinsic` of frame_executive): whether its call succeeded, and whether
the signer owes a fee. -/
structure TxOutcome where
  post : Chain
  succeeded : Bool
  fee : Bool

/-- Inclusion of a transaction (external: `Applyable::apply` of sp_runtime, `extract_actual_pays_fee` of
frame_support: no fee is due if the declaration or the post dispatch information says so; an error has the default
post dispatch information). Bare transactions pay nothing. -/
def Tx.apply (c : Cfg) (s : Chain) (t : Tx) : Option TxOutcome :=
  if t.included c s then
    match dispatch c s t.origin t.call with
    | .ok s' => some ⟨s', true, !t.isBare && !t.call.declaredFree && !t.call.waivesFee⟩
    | .error _ => some ⟨s, false, !t.isBare && !t.call.declaredFree⟩
  else none

end Verif
