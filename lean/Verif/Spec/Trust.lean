import Verif.Spec.Teerex
import Verif.Spec.Shard
import Verif.Spec.Frame

/-!
# Specification: why an account is trusted to act for some code
-/

namespace Verif

/-- The method registers an enclave that acts for itself. -/
def SgxAttestationMethod.sovereign : SgxAttestationMethod → Bool
  | .ias => true
  | .dcap proxied => !proxied
  | .skip proxied => !proxied

/-- The operation registers or unregisters the enclave of an account. -/
def Op.concernsEnclave (a : AccountId) : Op → Bool
  | .ext o (.registerSgxEnclave _ _ m) => decide (o = .signed a) && m.sovereign
  | .ext _ (.unregisterSovereignEnclave b) => decide (b = a)
  | _ => false

/-- In the list of accepted operations, the one at `before ++ [(s, _)]` is the last that concerns the enclave of `a`,
and it is a registration with this proof and method. -/
def LastRegistration (acc : List (Chain × Op)) (a : AccountId) (before : List (Chain × Op)) (s : Chain) (proof : Bytes)
    (m : SgxAttestationMethod) : Prop :=
  ∃ url after, acc = before ++ (s, .ext (.signed a) (.registerSgxEnclave proof url m)) :: after ∧ m.sovereign = true ∧
    ∀ p ∈ after, p.2.concernsEnclave a = false

/-- Somebody registered this identity of the quoting enclave, which was signed by Intel and valid at that time. -/
def IdentityFromIntel (c : Cfg) (acc : List (Chain × Op)) (q : SgxQuotingEnclave) : Prop :=
  ∃ s b d g ch, (s, Op.ext (.signed b) (.registerQuotingEnclave d g ch)) ∈ acc ∧ SignedIdentity c s.now d g ch q

/-- Somebody registered this TCB info of a platform, which was signed by Intel and valid at that time. -/
def TcbInfoFromIntel (c : Cfg) (acc : List (Chain × Op)) (f : Fmspc) (info : SgxTcbInfoOnChain) : Prop :=
  ∃ s b d g ch, (s, Op.ext (.signed b) (.registerTcbInfo d g ch)) ∈ acc ∧ SignedTcbInfo c s.now d g ch f info

/-- Root allowed registrations without attestation, or they were allowed at genesis. -/
def Waived (s0 : Chain) (acc : List (Chain × Op)) : Prop :=
  s0.tx.allowSkip = true ∨ ∃ s db, (s, Op.ext .root (.setSecurityFlags true db)) ∈ acc

/-- Why account `a` counts as an enclave with measurement `fp`, after these accepted operations. The last operation that
concerned its enclave is a registration with
* a report signed by Intel's attestation service, at most a day old, on an enclave with measurement `fp` that put `a`
  into its report data; or
* a quote on such an enclave, signed by a quoting enclave with an identity registered before and signed by Intel, on
  a platform with a TCB info registered before and signed by Intel; or
* no evidence at all, just the bytes of a measurement, after root allowed that. -/
inductive Trusted (c : Cfg) (s0 : Chain) (acc : List (Chain × Op)) (a : AccountId) (fp : Fingerprint) : Prop where
  | report (before s proof r) (last : LastRegistration acc a before s proof .ias) (authentic : AuthenticIas c.ext proof r)
      (fresh : r.timestamp ≤ s.now ∧ s.now < r.timestamp + c.momentsPerDay)
      (own : r.reportData.val.take 32 = a.val) (code : r.mrEnclave = fp)
  | quote (before s proof q f t r info st) (last : LastRegistration acc a before s proof (.dcap false))
      (authentic : AuthenticQuote c.ext proof s.now q f t r) (identity : IdentityFromIntel c before q)
      (tcb : TcbInfoFromIntel c before f info) (level : FirstDominated info t st)
      (own : r.reportData.val.take 32 = a.val) (code : r.mrEnclave = fp)
  | waived (before s proof) (last : LastRegistration acc a before s proof (.skip false)) (waiver : Waived s0 before)
      (code : 32 ≤ proof.length → fp.val = sub proof 0 32)

/-- The measurement an account needs to make a call: the one in effect for the shard, one on the whitelist of the data
source; none in particular for the first configuration of a shard and for publishing. -/
def Demands (s : Chain) (fp : Fingerprint) : Call → Prop
  | .confirmProcessedParentchainBlock shard _ _ _ | .unshieldFunds shard _ _ _
  | .confirmImportedSidechainBlock shard _ _ => fp = fingerprintInEffect s shard s.block
  | .updateShardConfig shard _ _ => s.br.config shard ≠ none → fp = fingerprintInEffect s shard s.block
  | .updateOracle _ src _ | .updateExchangeRate src _ _ => fp ∈ s.orc.whitelist src
  | _ => True

end Verif
