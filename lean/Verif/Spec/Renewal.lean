import Verif.Spec.Trust

/-!
# Specification: when an attestation was renewed the last time
-/

namespace Verif

/-- The operation registers an enclave that acts for itself, for the account `a`. -/
def Op.attests (a : AccountId) : Op → Bool
  | .ext o (.registerSgxEnclave _ _ m) => decide (o = .signed a) && m.sovereign
  | _ => false

/-- In the list of accepted operations, the last registration of the enclave of `a` was made in state `s` with this proof
and method. -/
def LastRenewal (acc : List (Chain × Op)) (a : AccountId) (s : Chain) (proof : Bytes) (m : SgxAttestationMethod) : Prop :=
  ∃ before url after, acc = before ++ (s, .ext (.signed a) (.registerSgxEnclave proof url m)) :: after ∧
    m.sovereign = true ∧ ∀ p ∈ after, p.2.attests a = false

/-- The time of an attestation: the time stated in the report, or otherwise the time of the block that includes the
registration. -/
def AttestedAt (c : Cfg) (s : Chain) (proof : Bytes) (m : SgxAttestationMethod) (t : Nat) : Prop :=
  match m with
  | .ias => ∃ r, AuthenticIas c.ext proof r ∧ r.timestamp = t
  | .dcap _ => t = s.now
  | .skip _ => t = s.now

/-- The operation, accepted in state `s`, registers the entry `e` for an enclave with the address `p`, which acts through
the account that registers it. -/
def RegistersProxied (c : Cfg) (p : EnclaveInstanceAddress) (s : Chain) (op : Op) (e : SgxEnclave) : Prop :=
  ∃ proof url m, op = .ext (.signed p.registrar) (.registerSgxEnclave proof url m) ∧ m.sovereign = false ∧ e.method = m ∧
    Attested c s p.registrar proof e ∧ p.fingerprint = e.mrEnclave ∧ p.signer = .opaque (e.reportData.val ++ [0, 0])

/-- In the list of accepted operations, the last registration of the enclave with this address was made in state `s` by
the operation `op`. -/
def LastProxiedRenewal (c : Cfg) (acc : List (Chain × Op)) (p : EnclaveInstanceAddress) (s : Chain) (op : Op) : Prop :=
  ∃ before after, acc = before ++ (s, op) :: after ∧ (∃ e, RegistersProxied c p s op e) ∧
    ∀ q ∈ after, ∀ e, ¬ RegistersProxied c p q.1 q.2 e

end Verif
