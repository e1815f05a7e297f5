import Verif.Props.Ledger
import Verif.Props.Teerex
import Verif.Props.Bridge
import Verif.Props.Claims

/-!
# Properties of the life of registrations, shards and claim signatures: C100 to C104
-/

namespace Verif

open Demo EnclaveBridge

/-! ### C100 Withdrawing a permission ends the registrations that need it -/

/-- The entry needs a permission that is not given: it is not attested or it is a debug enclave. -/
def Unpermitted (s : Chain) (e : SgxEnclave) : Prop :=
  ((∃ p, e.method = .skip p) ∧ s.tx.allowSkip = false) ∨ (e.buildMode = .debug ∧ s.tx.allowDebug = false)

/-- The full claim: there is never an entry that needs a permission which is not given. It is false for the code (see
`C100_refuted`). -/
def C100_Full : Prop :=
  ∀ (c : Cfg) (s0 : Chain) (ops : List Op), NoEnclaves s0 → ∀ a e, (run c s0 ops).tx.sovereign a = some e →
    ¬ Unpermitted (run c s0 ops) e

/-- An enclave registered without attestation stays registered when root disallows that. -/
theorem C100_refuted : ¬ C100_Full := by
  intro h
  have hs : ((run cfg start [enroll alice 7, .ext .root (.setSecurityFlags false false)]).tx.sovereign alice).isSome := by
    decide +kernel
  obtain ⟨e, he⟩ := Option.isSome_iff_exists.mp hs
  have hm : ((run cfg start [enroll alice 7, .ext .root (.setSecurityFlags false false)]).tx.sovereign alice).map
    (·.method) = some (.skip false) := by decide +kernel
  rw [he] at hm
  simp only [Option.map_some, Option.some.injEq] at hm
  exact h cfg start _ ⟨fun _ => rfl, fun _ => rfl⟩ alice e he (.inl ⟨⟨false, hm⟩, by decide +kernel⟩)

/-- The operation does not give a permission. -/
def Op.permits : Op → Bool
  | .ext .root (.setSecurityFlags sk db) => sk || db
  | _ => false

/-- Both permissions stay withdrawn, and entries that need one are older. -/
theorem unpermitted_run (c : Cfg) (s : Chain) (ops : List Op) (hsk : s.tx.allowSkip = false)
    (hdb : s.tx.allowDebug = false) (hops : ∀ op ∈ ops, op.permits = false) :
    (run c s ops).tx.allowSkip = false ∧ (run c s ops).tx.allowDebug = false ∧
    (∀ a e, (run c s ops).tx.sovereign a = some e → Unpermitted (run c s ops) e → s.tx.sovereign a = some e) ∧
    (∀ p e, (run c s ops).tx.proxied p = some e → Unpermitted (run c s ops) e → s.tx.proxied p = some e) := by
  refine run_invariant' (c := c) (Q := fun op => op.permits = false) (P := fun t => t.tx.allowSkip = false ∧
    t.tx.allowDebug = false ∧
    (∀ a e, t.tx.sovereign a = some e → Unpermitted t e → s.tx.sovereign a = some e) ∧
    (∀ p e, t.tx.proxied p = some e → Unpermitted t e → s.tx.proxied p = some e)) ?_ ⟨hsk, hdb, fun _ _ h _ => h, fun _ _ h _ => h⟩ ops hops
  rintro t t' op hq ⟨h1, h2, h3, h4⟩ hx
  have hf : t'.tx.allowSkip = false ∧ t'.tx.allowDebug = false := by
    rcases flags_effect hx with ⟨e1, e2⟩ | rfl
    · rw [e1, e2]; exact ⟨h1, h2⟩
    · simpa [Op.permits] using hq
  have hu : ∀ e, Unpermitted t' e ↔ Unpermitted t e := fun e => by
    unfold Unpermitted; rw [hf.1, hf.2, h1, h2]
  refine ⟨hf.1, hf.2, fun a e he hun => ?_, fun p e he hun => ?_⟩
  · rcases sovereign_effect hx a with h | ⟨proof, url, m, e', _, _, _, _, _, hat, hdb', _, _, he'⟩ | ⟨_, _, _, _, _, h⟩
    · rw [h] at he; exact h3 a e he ((hu e).mp hun)
    · rw [he'] at he
      obtain rfl := Option.some.inj he
      exfalso
      rcases hun with ⟨⟨p, hp⟩, _⟩ | ⟨hp, _⟩
      · simp only [Attested, hp, h1] at hat
        exact absurd hat.1 (by decide)
      · rcases hdb' with h | h
        · rw [h2] at h; exact absurd h (by decide)
        · exact h hp
    · rw [h] at he; simp at he
  · rcases proxied_effect hx p with h | ⟨proof, url, m, e', _, _, _, _, _, hat, hdb', _, _, _, he'⟩ | ⟨_, _, _, _, _, h⟩
    · rw [h] at he; exact h4 p e he ((hu e).mp hun)
    · rw [he'] at he
      obtain rfl := Option.some.inj he
      exfalso
      rcases hun with ⟨⟨p, hp⟩, _⟩ | ⟨hp, _⟩
      · simp only [Attested, hp, h1] at hat
        exact absurd hat.1 (by decide)
      · rcases hdb' with h | h
        · rw [h2] at h; exact absurd h (by decide)
        · exact h hp
    · rw [h] at he; simp at he

/-- C100, partial: once both permissions are withdrawn, no such entry is added or renewed: those that exist later are
unchanged entries of that time, and when the renewal period has passed since then, anybody can remove them. Missing: they
are not removed, and they act until then. -/
theorem C100_older_partial (c : Cfg) (s0 : Chain) (ops ops' : List Op) (h0 : NoEnclaves s0)
    (hsk : (run c s0 ops).tx.allowSkip = false) (hdb : (run c s0 ops).tx.allowDebug = false)
    (hops : ∀ op ∈ ops', op.permits = false) :
    (∀ a e, (run c s0 (ops ++ ops')).tx.sovereign a = some e → Unpermitted (run c s0 (ops ++ ops')) e →
      (run c s0 ops).tx.sovereign a = some e ∧
      ((run c s0 ops).now + c.maxRenewal < (run c s0 (ops ++ ops')).now → ∀ b, ∃ s',
        exec c (run c s0 (ops ++ ops')) (.ext (.signed b) (.unregisterSovereignEnclave a)) = .ok s' ∧
        s'.tx.sovereign a = none)) ∧
    (∀ p e, (run c s0 (ops ++ ops')).tx.proxied p = some e → Unpermitted (run c s0 (ops ++ ops')) e →
      (run c s0 ops).tx.proxied p = some e ∧
      ((run c s0 ops).now + c.maxRenewal < (run c s0 (ops ++ ops')).now → ∀ b, ∃ s',
        exec c (run c s0 (ops ++ ops')) (.ext (.signed b) (.unregisterProxiedEnclave p)) = .ok s' ∧
        s'.tx.proxied p = none)) := by
  obtain ⟨_, _, h1, h2⟩ := unpermitted_run c (run c s0 ops) ops' hsk hdb hops
  have hts := C26_entries_bounded c s0 ops h0
  rw [run_append]
  refine ⟨fun a e he hu => ⟨h1 a e he hu, fun hlt b => ?_⟩, fun p e he hu => ⟨h2 p e he hu, fun hlt b => ?_⟩⟩
  · have ht := (hts.1 a e (h1 a e he hu)).2
    obtain ⟨hiff, heff⟩ := C18_unregister_iff c (run c (run c s0 ops) ops') b a
    obtain ⟨s', hs'⟩ := hiff.mpr ⟨e, he, by omega⟩
    exact ⟨s', hs', (heff s' hs').1⟩
  · have ht := (hts.2 p e (h2 p e he hu)).2
    obtain ⟨hiff, heff⟩ := C18_unregister_proxied_iff c (run c (run c s0 ops) ops') b p
    obtain ⟨s', hs'⟩ := hiff.mpr ⟨e, he, by omega⟩
    exact ⟨s', hs', (heff s' hs').1⟩

example : NoEnclaves start ∧
    let s1 := run cfg start [enroll alice 7, .ext .root (.setSecurityFlags false false)]
    s1.tx.allowSkip = false ∧ s1.tx.allowDebug = false ∧ (s1.tx.sovereign alice).isSome = true ∧
    let s2 := run cfg s1 [.newBlock (cfg.maxRenewal + 1), enroll bob 7]
    s1.now + cfg.maxRenewal < s2.now ∧ (s2.tx.sovereign alice).isSome = true ∧ s2.tx.sovereign bob = none ∧
    ((step cfg s2 (.ext (.signed carol) (.unregisterSovereignEnclave alice))).tx.sovereign alice) = none :=
  ⟨⟨fun _ => rfl, fun _ => rfl⟩, by decide +kernel⟩

/-! ### C101 Enclaves act only while their attestation is fresh -/

/-- Calls that only registered enclaves may make. -/
def Call.enclaveOnly : Call → Bool
  | .confirmProcessedParentchainBlock .. | .unshieldFunds .. | .publishHash .. | .updateShardConfig ..
  | .confirmImportedSidechainBlock .. | .updateOracle .. | .updateExchangeRate .. => true
  | _ => false

/-- Such a call, signed by an account, succeeds only if the account is registered. -/
theorem enclaveOnly_registered {c : Cfg} {s s' : Chain} {a : AccountId} {k : Call} (hk : k.enclaveOnly = true)
    (h : exec c s (.ext (.signed a) k) = .ok s') : ∃ e, s.tx.sovereign a = some e := by
  cases k with
  | confirmProcessedParentchainBlock =>
    obtain ⟨b, e, l, ⟨hb, h1, _⟩, _⟩ := confirmProcessed_ok.mp h; cases hb; exact ⟨e, h1⟩
  | unshieldFunds => obtain ⟨b, e, l, ⟨hb, h1, _⟩, _⟩ := unshieldFunds_ok.mp h; cases hb; exact ⟨e, h1⟩
  | publishHash => obtain ⟨b, e, l, hb, h1, _⟩ := publishHash_ok.mp h; cases hb; exact ⟨e, h1⟩
  | updateShardConfig =>
    rcases updateShardConfig_ok.mp h with ⟨hb, _⟩ | ⟨b, e, l, hb, h1, _⟩
    · cases hb
    · cases hb; exact ⟨e, h1⟩
  | confirmImportedSidechainBlock =>
    obtain ⟨b, e, l, _, ⟨hb, h1, _⟩, _⟩ := Sidechain.confirmImported_ok.mp h; cases hb; exact ⟨e, h1⟩
  | updateOracle => obtain ⟨b, e, hb, h1, _⟩ := Teeracle.updateOracle_ok.mp h; cases hb; exact ⟨e, h1⟩
  | updateExchangeRate => obtain ⟨b, e, hb, h1, _⟩ := Teeracle.updateExchangeRate_ok.mp h; cases hb; exact ⟨e, h1⟩
  | _ => simp [Call.enclaveOnly] at hk

/-- The full claim: a call of an enclave succeeds only within the renewal period after its attestation. It is false for
the code (see `C101_refuted`). -/
def C101_Full : Prop :=
  ∀ (c : Cfg) (s s' : Chain) (a : AccountId) (k : Call) (e : SgxEnclave), k.enclaveOnly = true →
    exec c s (.ext (.signed a) k) = .ok s' → s.tx.sovereign a = some e → s.now ≤ e.timestamp + c.maxRenewal

/-- A stale enclave still confirms blocks. -/
theorem C101_refuted : ¬ C101_Full := by
  intro h
  let s := run cfg start [enroll alice 7, .newBlock (cfg.maxRenewal + 1)]
  let k : Call := .confirmProcessedParentchainBlock shard7 hash1 1 hash2
  have hs : (s.tx.sovereign alice).isSome := by decide +kernel
  obtain ⟨e, he⟩ := Option.isSome_iff_exists.mp hs
  have ht : (s.tx.sovereign alice).map (·.timestamp) = some 5000 := by decide +kernel
  rw [he] at ht
  simp only [Option.map_some, Option.some.injEq] at ht
  have hx : exec cfg s (.ext (.signed alice) k) = .ok (step cfg s (.ext (.signed alice) k)) :=
    exec_ok_of_isOk (by decide +kernel)
  have := h cfg s _ alice k e rfl hx he
  rw [ht] at this
  revert this
  decide +kernel

/-- C101, partial: a stale enclave can be removed by anybody, and from then on every call that only enclaves may make is
refused to its account until it registers again with a new attestation. Missing: the calls are not refused before
somebody removes the enclave. -/
theorem C101_removed_partial (c : Cfg) (s : Chain) (a b : AccountId) (e : SgxEnclave) (h : s.tx.sovereign a = some e)
    (hold : e.timestamp + c.maxRenewal < s.now) :
    ∃ s1, exec c s (.ext (.signed b) (.unregisterSovereignEnclave a)) = .ok s1 ∧
      ∀ ops : List Op, (∀ op ∈ ops, ∀ proof url m, op ≠ .ext (.signed a) (.registerSgxEnclave proof url m)) →
        ∀ k s', k.enclaveOnly = true → exec c (run c s1 ops) (.ext (.signed a) k) ≠ .ok s' := by
  obtain ⟨hiff, heff⟩ := C18_unregister_iff c s b a
  obtain ⟨s1, hs1⟩ := hiff.mpr ⟨e, h, hold⟩
  refine ⟨s1, hs1, fun ops hops k s' hk hx => ?_⟩
  have hnone : (run c s1 ops).tx.sovereign a = none := by
    refine run_invariant' (c := c) (Q := fun op => ∀ proof url m, op ≠ .ext (.signed a) (.registerSgxEnclave proof url m))
      (P := fun t => t.tx.sovereign a = none) ?_ (heff s1 hs1).1 ops hops
    intro t t' op hq ih hx
    rcases sovereign_effect hx a with h | ⟨proof, url, m, _, hop, _⟩ | ⟨_, _, _, _, _, h⟩
    · rw [h]; exact ih
    · exact absurd hop (hq proof url m)
    · exact h
  obtain ⟨e, he⟩ := enclaveOnly_registered hk hx
  rw [hnone] at he
  simp at he

example :
    let s := run cfg start [enroll alice 7, .newBlock (cfg.maxRenewal + 1)]
    ((s.tx.sovereign alice).any fun e => e.timestamp + cfg.maxRenewal < s.now) = true := by decide +kernel

/-! ### C102 The status of a shard lists enclaves that run its code -/

/-- The full claim: the entries in the status of a shard are of enclaves with the code in effect. It is false for the code
(see `C102_refuted`). -/
def C102_Full : Prop :=
  ∀ (c : Cfg) (s0 : Chain) (ops : List Op) (shard : ShardId), FreshBridge s0 →
    ∀ i ∈ statusOf (run c s0 ops) shard, i.fingerprint = fingerprintInEffect (run c s0 ops) shard (run c s0 ops).block

/-- After the code of a shard is upgraded, the entries of enclaves with the old code stay. -/
theorem C102_refuted : ¬ C102_Full := by
  intro h
  let ops : List Op := [enroll alice 7, .ext (.signed alice) (.updateShardConfig shard7 (config 7) 0),
    .ext (.signed alice) (.updateShardConfig shard7 (config 8) 0), .newBlock 1]
  have := h cfg start ops shard7 ⟨fun _ => rfl, fun _ => rfl, fun _ => rfl⟩ ⟨alice, shard7, 7⟩ (by decide +kernel)
  revert this
  decide +kernel

/-- `a`, an enclave with measurement `fp`, acts for a shard: it has the code in effect; or it gives a shard without
configuration its first one; or it publishes a hash, which counts for the shard named after its measurement. -/
def ActsFor (s : Chain) (shard : ShardId) (fp : Fingerprint) (k : Call) : Prop :=
  fp = fingerprintInEffect s shard s.block ∨
  (s.br.config shard = none ∧ ∃ cfg d, k = .updateShardConfig shard cfg d) ∨
  (fp = shard ∧ ∃ hash topics data, k = .publishHash hash topics data)

theorem mem_touchList {l : List SignerStatus} {new i : SignerStatus} (h : i ∈ touchList l new) : i ∈ l ∨ i = new := by
  unfold touchList at h
  split at h
  · exact List.mem_or_eq_of_mem_set h
  · rcases List.mem_append.mp h with h | h
    · exact .inl h
    · exact .inr (by simpa using h)

/-- A new entry in the status of a shard. -/
theorem new_entry {c : Cfg} {s s' : Chain} {op : Op} (h : exec c s op = .ok s') (shard : ShardId) (i : SignerStatus)
    (hi : i ∈ statusOf s' shard) :
    i ∈ statusOf s shard ∨ ∃ k e, op = .ext (.signed i.signer) k ∧ s.tx.sovereign i.signer = some e ∧
      e.mrEnclave = i.fingerprint ∧ i.lastActivity = s.block ∧ ActsFor s shard i.fingerprint k := by
  have key : ∀ (x : ShardId) (l : List SignerStatus) (a : AccountId) (k : Call) (e : SgxEnclave),
      s.tx.sovereign a = some e → l = touched s x a e.fingerprint s.block →
      s'.br.status = upd s.br.status x (some l) → op = .ext (.signed a) k → ActsFor s x e.mrEnclave k →
      i ∈ statusOf s shard ∨ ∃ k e, op = .ext (.signed i.signer) k ∧ s.tx.sovereign i.signer = some e ∧
      e.mrEnclave = i.fingerprint ∧ i.lastActivity = s.block ∧ ActsFor s shard i.fingerprint k := by
    intro x l a k e h1 h2 h4 h5 h6
    by_cases hx : shard = x
    · subst hx
      simp only [statusOf, h4, upd_same, Option.getD_some, h2] at hi
      rcases mem_touchList hi with hi | rfl
      · exact .inl hi
      · exact .inr ⟨k, e, h5, h1, rfl, rfl, h6⟩
    · left
      simpa only [statusOf, h4, upd_ne _ _ hx] using hi
  have same : s'.br.status shard = s.br.status shard → i ∈ statusOf s shard := fun e => by
    simpa only [statusOf, e] using hi
  by_cases hp : Part.bridge ∈ op.parts
  · cases op with
    | ext o k =>
      cases k with
      | invoke x cy => obtain ⟨a, rfl, rfl⟩ := (invoke_ok (cy := cy)).mp h; exact .inl hi
      | confirmProcessedParentchainBlock =>
        obtain ⟨a, e, l, ⟨rfl, h1, h2, h3, h4⟩, rfl⟩ := confirmProcessed_ok.mp h
        exact key _ l a _ e h1 h3 rfl rfl (.inl h2)
      | shieldFunds => obtain ⟨a, b, rfl, _, rfl⟩ := shieldFunds_ok.mp h; exact .inl hi
      | unshieldFunds =>
        obtain ⟨a, e, l, ⟨rfl, h1, h2, h3, h4⟩, (⟨_, _, _, _, _, rfl⟩ | ⟨_, _, _, _, rfl⟩)⟩ := unshieldFunds_ok.mp h
        · exact key _ l a _ e h1 h3 rfl rfl (.inl h2)
        · exact key _ l a _ e h1 h3 rfl rfl (.inl h2)
      | publishHash =>
        obtain ⟨a, e, l, rfl, h1, h3, h4, _, _, rfl⟩ := publishHash_ok.mp h
        exact key _ l a _ e h1 h3 rfl rfl (.inr (.inr ⟨rfl, _, _, _, rfl⟩))
      | updateShardConfig x cfg d =>
        rcases updateShardConfig_ok.mp h with ⟨rfl, rfl⟩ | ⟨a, e, l, rfl, h1, h2, h3, h4, rfl⟩
        · exact .inl hi
        · refine key _ l a _ e h1 h3 rfl rfl ?_
          cases hc : s.br.config x with
          | none => exact .inr (.inl ⟨hc, _, _, rfl⟩)
          | some u =>
            left
            have hin : configInEffect s x s.block = some (u.inEffect s.block) := by simp [configInEffect, hc]
            simp only [fingerprintInEffect, hin]
            exact h2 _ hin
      | purgeEnclave x a =>
        obtain ⟨l, rfl, h1, h2, rfl⟩ := purgeEnclave_ok.mp h
        by_cases hx : shard = x
        · subst hx
          simp only [statusOf, upd_same, Option.getD_some, List.mem_filter] at hi
          left
          simp only [statusOf, h1, Option.getD_some]
          exact hi.1
        · exact .inl (same (upd_ne _ _ hx))
      | confirmImportedSidechainBlock =>
        obtain ⟨a, e, l, first, ⟨rfl, h1, h2, h3, h4⟩, _, (⟨_, rfl⟩ | ⟨_, _, rfl⟩)⟩ := Sidechain.confirmImported_ok.mp h
        · exact key _ l a _ e h1 h3 rfl rfl (.inl h2)
        · exact key _ l a _ e h1 h3 rfl rfl (.inl h2)
      | claims k => cases k <;> simp [Op.parts, Call.parts] at hp
      | _ => simp [Op.parts, Call.parts] at hp
    | _ => simp [Op.parts] at hp
  · exact .inl (same (by rw [br_frame h hp]))

/-- C102, partial: each entry in the status of a shard goes back to an accepted call of its signer in the block it names,
when the signer was registered with the measurement it names and acted for the shard. Missing: the code in effect may
have changed since, and `publish_hash` and the first configuration do not look at the code in effect. -/
theorem C102_origin_partial (c : Cfg) (s0 : Chain) (ops : List Op) (shard : ShardId) (h0 : FreshBridge s0)
    (i : SignerStatus) (hi : i ∈ statusOf (run c s0 ops) shard) :
    ∃ s k e, (s, .ext (.signed i.signer) k) ∈ accepted c s0 ops ∧ s.block = i.lastActivity ∧
      s.tx.sovereign i.signer = some e ∧ e.mrEnclave = i.fingerprint ∧ ActsFor s shard i.fingerprint k := by
  revert i hi
  refine history_induction (P := fun s acc => ∀ i ∈ statusOf s shard, ∃ t k e, (t, .ext (.signed i.signer) k) ∈ acc ∧
    t.block = i.lastActivity ∧ t.tx.sovereign i.signer = some e ∧ e.mrEnclave = i.fingerprint ∧
    ActsFor t shard i.fingerprint k) ?_ ?_ ops
  · intro i hi
    simp [statusOf, h0.1 shard] at hi
  · intro s s' op acc ih hx i hi
    rcases new_entry hx shard i hi with hi | ⟨k, e, hop, h1, h2, h3, h4⟩
    · obtain ⟨t, k, e, hm, hr⟩ := ih i hi
      exact ⟨t, k, e, List.mem_append_left _ hm, hr⟩
    · exact ⟨s, k, e, by simp [hop], h3.symm, h1, h2, h4⟩

example : FreshBridge start ∧ (statusOf (run cfg start bridgeHistory) shard7).length = 2 :=
  ⟨⟨fun _ => rfl, fun _ => rfl, fun _ => rfl⟩, by decide +kernel⟩

/-! ### C103 A claim signature is good for one payout -/

/-- The operation redeems a signature over an account: `claim` or `claim_attest`. -/
def Op.redeems (op : Op) (dest : AccountId) (sig : EthSig) : Prop :=
  op = .ext .none (.claims (.claim dest sig)) ∨ ∃ st, op = .ext .none (.claims (.claimAttest dest sig st))

/-- The full claim: a signature that was redeemed cannot be redeemed in the same way again. It is false for the code (see
`C103_refuted`). -/
def C103_Full : Prop :=
  ∀ (c : Cfg) (s s1 : Chain) (op : Op) (dest : AccountId) (sig : EthSig), op.redeems dest sig →
    exec c s op = .ok s1 → ∀ (ops : List Op) (s2 : Chain), exec c (run c s1 ops) op ≠ .ok s2

/-- When a second claim is minted for the address, anybody can submit the old signature again. -/
theorem C103_refuted : ¬ C103_Full := by
  intro h
  let s := run cfg start [mintOp ethA 100 none none]
  have h1 : exec cfg s (claimOp carol) = .ok (step cfg s (claimOp carol)) := exec_ok_of_isOk (by decide +kernel)
  have h2 : exec cfg (run cfg (step cfg s (claimOp carol)) [mintOp ethA 50 none none]) (claimOp carol) =
      .ok (step cfg (run cfg (step cfg s (claimOp carol)) [mintOp ethA 50 none none]) (claimOp carol)) :=
    exec_ok_of_isOk (by decide +kernel)
  exact h cfg s _ (claimOp carol) carol anySig (.inl rfl) h1 _ _ h2

/-- What a successful redemption needs. -/
theorem redeems_needs {c : Cfg} {s s' : Chain} {op : Op} {dest : AccountId} {sig : EthSig} (hop : op.redeems dest sig)
    (h : exec c s op = .ok s') : ∃ g st due, SignedBy c g sig dest st ∧ s.cl.claims g = some due ∧
      s'.cl.claims g = none ∧ s'.cl.events = .claimed dest g due :: s.cl.events ∧
      (op = .ext .none (.claims (.claim dest sig)) ∧ st = [] ∨ op = .ext .none (.claims (.claimAttest dest sig st))) := by
  rcases claims_effect h with ⟨_, hp⟩ | ⟨g, d, due, auth, hc, _, _, _, hcl, _, _, hev⟩ | ⟨_, _, _, _, h, _⟩ | ⟨_, _, _, _, h, _⟩
  · rcases hop with rfl | ⟨st, rfl⟩ <;> simp [Op.parts, Call.parts] at hp
  · rcases auth with ⟨sg, he, hs, _⟩ | ⟨sg, st, he, hs, _⟩ | ⟨st, he, _⟩
    · rcases hop with rfl | ⟨st', rfl⟩
      · cases he
        exact ⟨g, [], due, hs, hc, by rw [hcl, upd_same], hev, .inl ⟨rfl, rfl⟩⟩
      · cases he
    · rcases hop with rfl | ⟨st', rfl⟩
      · cases he
      · cases he
        exact ⟨g, _, due, hs, hc, by rw [hcl, upd_same], hev, .inr rfl⟩
    · rcases hop with rfl | ⟨st', rfl⟩ <;> cases he
  · rcases hop with rfl | ⟨st', rfl⟩ <;> cases h
  · rcases hop with rfl | ⟨st', rfl⟩ <;> cases h

/-- C103, partial: the payout goes to the account in the signed message, and the same submission is refused from then on
until root mints, or somebody entitled moves, a new claim to the address. Missing: it works again after that. -/
theorem C103_until_new_claim_partial (c : Cfg) (s s1 : Chain) (op : Op) (dest : AccountId) (sig : EthSig)
    (hop : op.redeems dest sig) (h : exec c s op = .ok s1) :
    ∃ g st due, SignedBy c g sig dest st ∧ s.cl.claims g = some due ∧
      s1.cl.events = .claimed dest g due :: s.cl.events ∧
      ∀ ops : List Op, (∀ op' ∈ ops, op'.givesClaimTo ≠ some g) → ∀ s2, exec c (run c s1 ops) op ≠ .ok s2 := by
  obtain ⟨g, st, due, hs, hc, hn, hev, hcase⟩ := redeems_needs hop h
  refine ⟨g, st, due, hs, hc, hev, fun ops hops s2 hx => ?_⟩
  have hnone : (run c s1 ops).cl.claims g = none := by
    refine run_invariant' (c := c) (Q := fun op => op.givesClaimTo ≠ some g) (P := fun t => t.cl.claims g = none) ?_ hn ops
      hops
    intro t t' op hq ih hx
    rcases claims_effect hx with ⟨h, _⟩ | ⟨g', _, _, _, _, _, _, _, hcl, _⟩ | ⟨who, _, _, _, hop, _, hcl, _⟩ |
      ⟨_, old, new, _, hop, _, rfl⟩
    · rw [h]; exact ih
    · rw [hcl]
      by_cases hg : g = g'
      · subst hg; exact upd_same ..
      · rw [upd_ne _ _ hg]; exact ih
    · subst hop
      have hw : who ≠ g := fun e => hq (by simp [Op.givesClaimTo, e])
      rw [hcl, upd_ne _ _ (Ne.symm hw)]; exact ih
    · subst hop
      have hw : new ≠ g := fun e => hq (by simp [Op.givesClaimTo, e])
      show Claims.moveEntry _ old new g = none
      rw [moveEntry_apply]
      split
      · exact ih
      · rw [if_neg (Ne.symm hw)]
        split
        · rfl
        · exact ih
  obtain ⟨g', st', due', hs', hc', _, _, hcase'⟩ := redeems_needs hop hx
  have hst : st' = st := by
    rcases hcase with ⟨rfl, rfl⟩ | rfl <;> rcases hcase' with ⟨h, rfl⟩ | h
    · rfl
    · cases h
    · cases h
    · cases h; rfl
  subst hst
  obtain ⟨pk, e1, e2⟩ := hs
  obtain ⟨pk', e1', e2'⟩ := hs'
  rw [e1] at e1'
  obtain rfl := Option.some.inj e1'
  have hg : g' = g := Subtype.ext (e2'.trans e2.symm)
  rw [hg, hnone] at hc'
  simp at hc'

example : (claimOp carol).redeems carol anySig ∧
    (exec cfg (run cfg start [mintOp ethA 100 none none]) (claimOp carol)).isOk = true :=
  ⟨.inl rfl, by decide +kernel⟩

/-! ### C104 Funds go only into shards that exist -/

/-- The full claim: shielding is refused for a shard that has neither configuration nor status. It is false for the code
(see `C104_refuted`). -/
def C104_Full : Prop :=
  ∀ (c : Cfg) (s s' : Chain) (o : Origin) (shard : ShardId) (inc : Bytes) (amount : Nat),
    exec c s (.ext o (.shieldFunds shard inc amount)) = .ok s' → s.br.config shard ≠ none ∨ s.br.status shard ≠ none

/-- Bob can shield into a shard nobody has ever mentioned. -/
theorem C104_refuted : ¬ C104_Full := by
  intro h
  have hx : exec cfg start (shield bob 100) = .ok (step cfg start (shield bob 100)) := exec_ok_of_isOk (by decide +kernel)
  rcases h cfg start _ _ _ _ _ hx with h | h <;> exact h rfl

/-- C104, partial: money in the vault of a shard that never gets a configuration, while no enclave with the shard id as
measurement is registered, stays there (nobody having the key of the vault, and without slashing). So it is not lost to
somebody else. Missing: the call is not refused. -/
theorem C104_stays_partial (c : Cfg) (s0 : Chain) (ops : List Op) (shard : ShardId) (h0 : s0.br.config shard = none)
    (hcfg : ∀ op ∈ ops, ∀ o cfg d, op ≠ .ext o (.updateShardConfig shard cfg d))
    (hkey : ∀ op ∈ ops, (∀ k, op ≠ .ext (.signed shard) k) ∧ ∀ n, op ≠ .slash shard n)
    (hm : ∀ p ∈ accepted c s0 ops, ∀ b e, p.1.tx.sovereign b = some e → e.mrEnclave ≠ shard) :
    s0.bal.free shard ≤ (run c s0 ops).bal.free shard := by
  induction ops generalizing s0 with
  | nil => exact Nat.le_refl _
  | cons op ops ih =>
    have t1 := fun op hop => hcfg op (List.mem_cons_of_mem _ hop)
    have t2 := fun op hop => hkey op (List.mem_cons_of_mem _ hop)
    cases hx : exec c s0 op with
    | error e =>
      rw [accepted_cons_error hx] at hm
      rw [run_cons, step_of_error hx]
      exact ih s0 h0 t1 t2 hm
    | ok s' =>
      rw [accepted_cons_ok hx] at hm
      rw [run_cons, step_of_ok hx]
      have hc' : s'.br.config shard = none := by
        rcases config_effect hx shard with h | h | ⟨o, cfg, d, h, _⟩
        · rw [h, h0]
        · rw [h, h0]; rfl
        · exact absurd h (hcfg op (by simp) o cfg d)
      refine Nat.le_trans ?_ (ih s' hc' t1 t2 (fun p hp => hm p (List.mem_cons_of_mem _ hp)))
      refine Decidable.byContradiction fun hlt => ?_
      rcases free_decrease hx shard (Nat.lt_of_not_le hlt) with ⟨k, hk⟩ | ⟨n, hn⟩ | ⟨b, _, _, _, _, ⟨e, he, hfp⟩, _⟩
      · exact (hkey op (by simp)).1 k hk
      · exact (hkey op (by simp)).2 n hn
      · refine hm (s0, op) (by simp) b e he ?_
        rw [hfp]
        simp [fingerprintInEffect, configInEffect, h0]

example :
    let ops := [shield bob 100, enroll alice 9, unshield alice alice 50 hash1]
    start.br.config shard7 = none ∧
    (∀ op ∈ ops, ∀ o cfg d, op ≠ .ext o (.updateShardConfig shard7 cfg d)) ∧
    (∀ op ∈ ops, (∀ k, op ≠ .ext (.signed shard7) k) ∧ ∀ n, op ≠ .slash shard7 n) ∧
    (∀ p ∈ accepted cfg start ops, ∀ b e, p.1.tx.sovereign b = some e → e.mrEnclave ≠ shard7) ∧
    (accepted cfg start ops).length = 2 ∧ (run cfg start ops).bal.free shard7 = 100 := by
  refine ⟨rfl, ?_, ?_, ?_, by decide +kernel, by decide +kernel⟩
  · intro op h
    simp only [List.mem_cons, List.not_mem_nil, or_false] at h
    rcases h with rfl | rfl | rfl <;> simp [enroll, shield, unshield]
  · have ha : bob ≠ shard7 ∧ alice ≠ shard7 := by decide +kernel
    intro op h
    simp only [List.mem_cons, List.not_mem_nil, or_false] at h
    rcases h with rfl | rfl | rfl <;> simp [enroll, shield, unshield, ha.1, ha.2]
  · have h1 : exec cfg start (shield bob 100) = .ok (step cfg start (shield bob 100)) := exec_ok_of_isOk (by decide +kernel)
    have h2 : exec cfg (step cfg start (shield bob 100)) (enroll alice 9) =
        .ok (step cfg (step cfg start (shield bob 100)) (enroll alice 9)) := exec_ok_of_isOk (by decide +kernel)
    have h3 : ∃ er, exec cfg (step cfg (step cfg start (shield bob 100)) (enroll alice 9)) (unshield alice alice 50 hash1) =
        .error er := by
      cases h : exec cfg (step cfg (step cfg start (shield bob 100)) (enroll alice 9)) (unshield alice alice 50 hash1) with
      | ok s' =>
        have : (exec cfg (step cfg (step cfg start (shield bob 100)) (enroll alice 9))
          (unshield alice alice 50 hash1)).isOk = false := by decide +kernel
        rw [h] at this; simp [Except.isOk, Except.toBool] at this
      | error er => exact ⟨er, rfl⟩
    obtain ⟨er, h3⟩ := h3
    rw [accepted_cons_ok h1, accepted_cons_ok h2, accepted_cons_error h3]
    have ht : (step cfg start (shield bob 100)).tx = start.tx := exec_frame h1 .teerex (by decide)
    intro p hp b e he
    simp only [accepted, List.mem_cons, List.not_mem_nil, or_false] at hp
    rcases hp with rfl | rfl
    · cases he
    · simp only [ht] at he; cases he

end Verif
