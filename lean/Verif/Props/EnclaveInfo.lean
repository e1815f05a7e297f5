import Verif.Model.EnclaveInfo
import Verif.Props.Teerex

/-!
# What is read from an enclave in the registry: C164, C165
-/

namespace Verif

open Demo

/-! ### C164 An enclave tells the identity it is registered under -/

theorem sovereign_tells {e : SgxEnclave} {a : AccountId} (hk : e.reportData.val.take 32 = a.val)
    (hm : e.method = .ias ∨ e.method = .dcap false ∨ e.method = .skip false) :
    e.maybePubkey = some a ∧ e.instanceSigner = some (.known (.ed25519 a)) ∧ e.proxied = false := by
  have hl : lower32 e.reportData = a := Subtype.ext hk
  rcases hm with hm | hm | hm <;> simp [SgxEnclave.instanceSigner, SgxEnclave.maybePubkey, SgxEnclave.proxied, hm, hl]

/-- C164: an enclave of the first registry tells the account it is registered under, as its key and as its signer. -/
theorem C164_sovereign (c : Cfg) (s0 : Chain) (ops : List Op) (h0 : NoEnclaves s0) (a : AccountId) (e : SgxEnclave)
    (h : (run c s0 ops).tx.sovereign a = some e) :
    e.maybePubkey = some a ∧ e.instanceSigner = some (.known (.ed25519 a)) ∧ e.proxied = false ∧
    e.attestationTimestamp ≤ (run c s0 ops).now := by
  obtain ⟨hk, hm, _⟩ := C12_sovereign_own_key c s0 ops h0 a e h
  obtain ⟨h1, h2, h3⟩ := sovereign_tells hk hm
  exact ⟨h1, h2, h3, ((C26_entries_bounded c s0 ops h0).1 a e h).2⟩

example : NoEnclaves start ∧ ∃ e, (run okCfg start dcapHistory).tx.sovereign alice = some e :=
  ⟨⟨fun _ => rfl, fun _ => rfl⟩, Option.isSome_iff_exists.mp (by decide +kernel)⟩

/-- C164: an enclave of the second registry tells the fingerprint and the signer of its address; it has no key of its own. -/
theorem C164_proxied (c : Cfg) (s0 : Chain) (ops : List Op) (h0 : NoEnclaves s0) (p : EnclaveInstanceAddress) (e : SgxEnclave)
    (h : (run c s0 ops).tx.proxied p = some e) :
    e.maybePubkey = none ∧ e.instanceSigner = some p.signer ∧ e.fingerprint = p.fingerprint ∧ e.proxied = true ∧
    e.attestationTimestamp ≤ (run c s0 ops).now := by
  obtain ⟨hf, hs, hm, _⟩ := C13_proxied_address c s0 ops h0 p e h
  have hp : e.proxied = true := by rcases hm with hm | hm <;> simp [SgxEnclave.proxied, hm]
  refine ⟨?_, ?_, hf.symm, hp, ((C26_entries_bounded c s0 ops h0).2 p e h).2⟩
  · rcases hm with hm | hm <;> simp [SgxEnclave.maybePubkey, hm]
  · rw [Teerex.instanceSigner_proxied hp, hs]

example : NoEnclaves start ∧ ∃ e, (run okCfg start dcapHistory).tx.proxied proxiedAddress = some e :=
  ⟨⟨fun _ => rfl, fun _ => rfl⟩, Option.isSome_iff_exists.mp (by decide +kernel)⟩

/-- C164: so two enclaves with one signer are one entry: in the first registry the signer alone tells the account, in the second
one together with fingerprint and registrar the address; and no signer occurs in both registries. -/
theorem C164_one_identity (c : Cfg) (s0 : Chain) (ops : List Op) (h0 : NoEnclaves s0) :
    (∀ a a' e e', (run c s0 ops).tx.sovereign a = some e → (run c s0 ops).tx.sovereign a' = some e' →
      e.instanceSigner = e'.instanceSigner → a = a') ∧
    (∀ p p' e e', (run c s0 ops).tx.proxied p = some e → (run c s0 ops).tx.proxied p' = some e' →
      e.instanceSigner = e'.instanceSigner → e.fingerprint = e'.fingerprint → p.registrar = p'.registrar → p = p') ∧
    (∀ a p e e', (run c s0 ops).tx.sovereign a = some e → (run c s0 ops).tx.proxied p = some e' →
      e.instanceSigner ≠ e'.instanceSigner) := by
  refine ⟨?_, ?_, ?_⟩
  · intro a a' e e' h h' hs
    rw [(C164_sovereign c s0 ops h0 a e h).2.1, (C164_sovereign c s0 ops h0 a' e' h').2.1] at hs
    simpa using hs
  · intro p p' e e' h h' hs hf hr
    obtain ⟨_, h1, h2, _⟩ := C164_proxied c s0 ops h0 p e h
    obtain ⟨_, h1', h2', _⟩ := C164_proxied c s0 ops h0 p' e' h'
    rw [h1, h1', Option.some.injEq] at hs
    rw [h2, h2'] at hf
    cases p; cases p'; simp_all
  · intro a p e e' h h' hs
    obtain ⟨_, hs', _⟩ := C13_proxied_address c s0 ops h0 p e' h'
    rw [(C164_sovereign c s0 ops h0 a e h).2.1, (C164_proxied c s0 ops h0 p e' h').2.1, hs'] at hs
    simp at hs

/-- In one history Alice's quote is in both registries; the signers differ. -/
example : ((run okCfg start dcapHistory).tx.sovereign alice).isSome = true ∧
    ((run okCfg start dcapHistory).tx.proxied proxiedAddress).isSome = true ∧
    ((run okCfg start dcapHistory).tx.sovereign alice).map (·.instanceSigner) ≠
      ((run okCfg start dcapHistory).tx.proxied proxiedAddress).map (·.instanceSigner) := by decide +kernel

/-- C164: a key put into report data, by conversion or by `with_pubkey`, is read back as the key of the enclave, unless the
enclave is registered for others. -/
theorem C164_key_back (e : SgxEnclave) (k : Arr 32) (m : SgxAttestationMethod) :
    lower32 (SgxReportData.ofKey k) = k ∧
    e.withPubkey k.val = some { e with reportData := SgxReportData.ofKey k } ∧
    ((({ e with reportData := SgxReportData.ofKey k } : SgxEnclave).withAttestationMethod m).maybePubkey =
      if (e.withAttestationMethod m).proxied then none else some k) := by
  have hl : lower32 (SgxReportData.ofKey k) = k := by
    apply Subtype.ext
    show (k.val ++ _).take 32 = k.val
    rw [List.take_append_of_le_length (by rw [k.property]; exact Nat.le_refl _), List.take_of_length_le (by rw [k.property]; exact Nat.le_refl _)]
  refine ⟨hl, ?_, ?_⟩
  · unfold SgxEnclave.withPubkey
    rw [dif_pos (by rw [k.property]; decide)]
    congr 2
    apply Subtype.ext
    show k.val ++ List.replicate (64 - k.val.length) 0 = k.val ++ (List.replicate 64 0).drop 32
    rw [k.property, List.drop_replicate]
  · rcases m with p | _ | p <;> try cases p
    all_goals simp [SgxEnclave.withAttestationMethod, SgxEnclave.maybePubkey, SgxEnclave.proxied, hl]

/-! ### C165 The author of an enclave is recognised -/

/-- The full claim: the author of an enclave is the signer that its author's key is converted to. It is false for the code, see
`C165_refuted`: one form is padded to 66 bytes and the other one is not. -/
def C165_Full : Prop := ∀ e : SgxEnclave, AnySigner.from32 e.mrSigner = some e.author

/-- C165: the two forms never agree. So a comparison of the author with a converted key always fails. -/
theorem C165_sharp (e : SgxEnclave) (k : Arr 32) : AnySigner.from32 k ≠ some e.author := by
  intro h
  simp only [AnySigner.from32, opaqueTryFrom, SgxEnclave.author, List.length_append, List.length_replicate, k.property,
    e.mrSigner.property] at h
  simp at h
  have := congrArg List.length h
  simp [k.property, e.mrSigner.property] at this

theorem C165_refuted : ¬ C165_Full := fun h =>
  let e : SgxEnclave := SgxEnclave.new SgxReportData.default (Arr.zero 32) (Arr.fill 32 5) 0 .production .ok
  C165_sharp e e.mrSigner (h e)

/-- C165, proved part: the author is exactly the 32 bytes of MRSIGNER, so two enclaves have the same author exactly if these are
equal. Missing: agreement with the conversion of keys (false, see `C165_sharp`). -/
theorem C165_same_author_partial (e e' : SgxEnclave) :
    e.author = .opaque e.mrSigner.val ∧ (e.author = e'.author ↔ e.mrSigner = e'.mrSigner) := by
  have key : ∀ e : SgxEnclave, e.author = .opaque e.mrSigner.val := by
    intro e
    simp [SgxEnclave.author, opaqueTryFrom, e.mrSigner.property]
  refine ⟨key e, ?_⟩
  rw [key e, key e', AnySigner.opaque.injEq]
  exact ⟨fun h => Subtype.ext h, fun h => by rw [h]⟩

example : (SgxEnclave.new SgxReportData.default (Arr.zero 32) (Arr.fill 32 5) 0 .production .ok).author = .opaque (bytes 32 5) ∧
    (AnySigner.from32 (Arr.fill 32 5)).isSome = true := by decide +kernel

end Verif
