import Verif.Model.ErrorCodes
import Verif.Spec.ErrorCodes
import Verif.Props.Refusal
import Verif.Props.ScaleEvents

/-!
# C140: the codes of refusals
-/

namespace Verif
open Scale Demo

theorem mayReport_of (c : Cfg) (s : Chain) (o : Origin) (k : Call) :
    ∀ e ∈ (conditions c s o k).map (·.1), e ∈ mayReport k ∨ e = .panic := by
  intro e he
  cases k
  case registerSgxEnclave p u m =>
    cases m <;> simp only [conditions, needAttestation, reported, needIas, needQuote, needChain, needPlatform, needSigned,
      List.map_append, List.map_cons, List.map_nil, List.mem_append, List.mem_cons, List.not_mem_nil, or_false, mayReport,
      chainErrors] at he ⊢ <;> grind
  case claims k =>
    cases k <;> cases o <;> simp only [conditions, needClaim, needSigned, List.map_append, List.map_cons, List.map_nil,
      List.mem_append, List.mem_cons, List.not_mem_nil, or_false, mayReport, claimErrors] at he ⊢ <;> grind
  case sendSwapUmp =>
    simp only [conditions, List.map_append, List.map_cons, List.map_nil, List.mem_append, List.mem_cons, List.not_mem_nil,
      or_false, mayReport, sendTable] at he ⊢
    grind
  case confirmImportedSidechainBlock x _ _ =>
    simp only [conditions, List.map_append, List.mem_append, mayReport] at he ⊢
    rcases he with he | he
    · exact .inl (.inl he)
    · cases hx : s.sc.latest x <;> rw [hx] at he
      · cases he
      · simp only [List.map_cons, List.map_nil] at he
        exact .inl (.inr he)
  case unshieldFunds x _ _ h =>
    simp only [conditions, List.map_append, List.mem_append, mayReport] at he ⊢
    rcases he with he | he
    · exact .inl (.inl he)
    · cases hx : s.br.executed h <;> rw [hx] at he
      · exact .inl (.inr he)
      · simp only [List.map_cons, List.map_nil, List.mem_cons, List.not_mem_nil, or_false] at he
        exact .inr he
  all_goals
    cases o <;> simp only [conditions, needSigned, needPay, needEnclaveOf, needSignedDocument, needChain, reported,
      List.map_append, List.map_cons, List.map_nil, List.mem_append, List.mem_cons, List.not_mem_nil, or_false, mayReport,
      chainErrors, payErrors, enclaveErrors] at he ⊢ <;> grind

theorem says_of {ix : PalletIndex} {v : UInt8} {e : Err} (p : Pallet) (h : some e ∈ declared p)
    (hr : Codes.receipt ix v e = some (moduleCode ix p ((declared p).idxOf (some e)))) :
    ∃ b, Codes.receipt ix v e = some b ∧ Says ix b e :=
  ⟨_, hr, .inl ⟨p, _, by rw [List.getElem?_eq_getElem (List.idxOf_lt_length_of_mem h), List.getElem_idxOf], rfl⟩⟩

theorem receipt_says (ix : PalletIndex) (v : UInt8) (e : Err) (h1 : e ≠ .panic) (h2 : e ≠ .sgx .panic)
    (h3 : e ≠ .bal .atMaxVestingSchedules) (h4 : e ≠ .bal .invalidScheduleParams) :
    ∃ b, Codes.receipt ix v e = some b ∧ Says ix b e := by
  cases e
  case panic => exact absurd rfl h1
  case bal x => cases x <;> first
    | exact absurd rfl h3
    | exact absurd rfl h4
    | exact ⟨_, rfl, .inr (by decide)⟩
  case sgx x => cases x <;> first
    | exact absurd rfl h2
    | exact says_of .tx (by decide) rfl
  all_goals first
    | exact ⟨_, rfl, .inr (by decide)⟩
    | exact says_of .td (by decide) rfl
    | exact says_of .tx (by decide) rfl
    | exact says_of .br (by decide) rfl
    | exact says_of .sc (by decide) rfl
    | exact says_of .orc (by decide) rfl
    | exact says_of .cl (by decide) rfl
    | exact says_of .ar (by decide) rfl
    | exact says_of .xt (by decide) rfl

theorem number_inj {ix : PalletIndex} (h : ix.Apart) {p q : Pallet} (he : p.number ix = q.number ix) : p = q := by
  simp only [PalletIndex.Apart, List.nodup_cons, List.mem_cons, List.not_mem_nil, or_false, not_or] at h
  cases p <;> cases q <;> first | rfl | (simp only [Pallet.number] at he; grind)

theorem declared_short (p : Pallet) : (declared p).length < 256 := by cases p <;> decide

theorem says_inj {ix : PalletIndex} (h : ix.Apart) {b : Bytes} {e e' : Err} (h1 : Says ix b e) (h2 : Says ix b e') :
    e = e' := by
  have fw : ∀ {e : Err} {b : Bytes}, (e, b) ∈ frameworkCodes → ∀ p i, b ≠ moduleCode ix p i := by
    intro e b hm p i hb
    subst hb
    simp [frameworkCodes, moduleCode] at hm
  rcases h1 with ⟨p, i, hp, rfl⟩ | h1
  · rcases h2 with ⟨q, j, hq, hb⟩ | h2
    · simp only [moduleCode, List.cons.injEq, and_true, true_and] at hb
      have := number_inj h hb.1
      subst this
      obtain ⟨hi, _⟩ := List.getElem?_eq_some_iff.1 hp
      obtain ⟨hj, _⟩ := List.getElem?_eq_some_iff.1 hq
      have hl := declared_short p
      have hij : i = j := by
        have := congrArg UInt8.toNat hb.2
        simp only [UInt8.toNat_ofNat'] at this
        omega
      subst hij
      rw [hp] at hq
      cases hq
      rfl
    · exact absurd rfl (fw h2 p i)
  · rcases h2 with ⟨q, j, hq, hb⟩ | h2
    · exact absurd hb (fw h1 q j)
    · simp only [frameworkCodes, List.mem_cons, List.not_mem_nil, or_false, Prod.mk.injEq] at h1 h2
      grind

theorem mayReport_ordinary (k : Call) : .panic ∉ mayReport k ∧ .sgx .panic ∉ mayReport k ∧
    .bal .atMaxVestingSchedules ∉ mayReport k ∧ .bal .invalidScheduleParams ∉ mayReport k := by
  cases k
  case registerSgxEnclave p u m => cases m <;> simp [mayReport, chainErrors, payErrors, enclaveErrors, claimErrors]
  case claims k => cases k <;> simp [mayReport, chainErrors, payErrors, enclaveErrors, claimErrors]
  all_goals simp [mayReport, chainErrors, payErrors, enclaveErrors, claimErrors]

/-! ### C140 -/

/-- C140 (which errors): in every state of every history a refused call reports one of the errors listed for it, or
panics. -/
theorem C140_only (c : Cfg) (s0 : Chain) (ops : List Op) (h0 : FreshBridge s0) (o : Origin) (k : Call) (e : Err)
    (h : exec c (run c s0 ops) (.ext o k) = .error e) : e ∈ mayReport k ∨ e = .panic :=
  mayReport_of c _ o k e (firstFailing_mem ((C136_reason c s0 ops h0 o k e).1 h))

/-- Bob is no enclave. -/
example : exec cfg (run cfg start bridgeHistory) (unshield bob carol 40 hash2) = .error .enclaveIsNotRegistered :=
  errorOf_some (by decide +kernel)

/-- C140 (code): a refused call that does not panic leaves bytes that say its error; no other error is said by them. -/
theorem C140_code (ix : PalletIndex) (hix : ix.Apart) (vesting : UInt8) (c : Cfg) (s0 : Chain) (ops : List Op)
    (h0 : FreshBridge s0) (o : Origin) (k : Call) (e : Err) (h : exec c (run c s0 ops) (.ext o k) = .error e) :
    (e = .panic ∧ Codes.receipt ix vesting e = none) ∨
      ∃ b, Codes.receipt ix vesting e = some b ∧ Says ix b e ∧ ∀ e', Says ix b e' → e' = e := by
  rcases C140_only c s0 ops h0 o k e h with hm | rfl
  · obtain ⟨n1, n2, n3, n4⟩ := mayReport_ordinary k
    obtain ⟨b, hb, hs⟩ := receipt_says ix vesting e (fun h => n1 (h ▸ hm)) (fun h => n2 (h ▸ hm)) (fun h => n3 (h ▸ hm))
      (fun h => n4 (h ▸ hm))
    exact .inr ⟨b, hb, hs, fun e' h' => says_inj hix h' hs⟩
  · exact .inl ⟨rfl, rfl⟩

/-- The bytes after three refusals: of Bob, who is no enclave (pallet 51, error 5); of a withdrawal of more than the
shard has (funds unavailable); of a quote that is no quote (pallet 51, error 22). -/
example :
    exec cfg (run cfg start bridgeHistory) (unshield bob carol 40 hash2) = .error .enclaveIsNotRegistered ∧
    Codes.receipt demoIndex 60 .enclaveIsNotRegistered = some [3, 51, 5, 0, 0, 0] ∧
    exec cfg (run cfg start bridgeHistory) (unshield alice carol 4000 hash2) = .error (.bal .fundsUnavailable) ∧
    Codes.receipt demoIndex 60 (.bal .fundsUnavailable) = some [7, 0] ∧
    exec cfg start (.ext (.signed alice) (.registerSgxEnclave [1] none (.dcap false))) =
      .error (.sgx .dcapQuoteDecodingError) ∧
    Codes.receipt demoIndex 60 (.sgx .dcapQuoteDecodingError) = some [3, 51, 22, 0, 0, 0] :=
  ⟨errorOf_some (by decide +kernel), by decide +kernel, errorOf_some (by decide +kernel), by decide +kernel,
   errorOf_some (by decide +kernel), by decide +kernel⟩

/-- C140 (reason): from the bytes alone it can be told which condition of the call did not hold, and that all conditions
before it did. -/
theorem C140_reason (ix : PalletIndex) (hix : ix.Apart) (vesting : UInt8) (c : Cfg) (s0 : Chain) (ops : List Op)
    (h0 : FreshBridge s0) (o : Origin) (k : Call) (e e' : Err) (b : Bytes)
    (h : exec c (run c s0 ops) (.ext o k) = .error e) (hb : Codes.receipt ix vesting e = some b) (hs : Says ix b e') :
    FirstFailing (conditions c (run c s0 ops) o k) e' := by
  rcases C140_code ix hix vesting c s0 ops h0 o k e h with ⟨_, hn⟩ | ⟨b', hb', _, hu⟩
  · rw [hn] at hb; cases hb
  · rw [hb'] at hb; cases hb
    rw [hu e' hs]
    exact (C136_reason c s0 ops h0 o k e).1 h

/-- Bytes that were read off the chain: pallet 51, error 5. -/
example : exec cfg (run cfg start bridgeHistory) (unshield bob carol 40 hash2) = .error .enclaveIsNotRegistered ∧
    Codes.receipt demoIndex 60 .enclaveIsNotRegistered = some [3, 51, 5, 0, 0, 0] ∧
    Says demoIndex [3, 51, 5, 0, 0, 0] .enclaveIsNotRegistered :=
  ⟨errorOf_some (by decide +kernel), by decide +kernel, .inl ⟨.tx, 5, by decide, rfl⟩⟩

/-- C140 (dead codes): the errors that are declared but not used, and the ones of the verification library that its
functions do not return, are never reported. -/
theorem C140_never (ix : PalletIndex) (hix : ix.Apart) (vesting : UInt8) (c : Cfg) (s0 : Chain) (ops : List Op)
    (h0 : FreshBridge s0) (o : Origin) (k : Call) (e : Err) (h : exec c (run c s0 ops) (.ext o k) = .error e) :
    (∀ p i, (declared p)[i]? = some none → Codes.receipt ix vesting e ≠ some (moduleCode ix p i)) ∧
    e ∉ [.sgx .cpuSvnDecodingError, .sgx .derEncodingError, .sgx .fmspcDecodingError, .sgx .publicKeyIsInvalid] := by
  constructor
  · intro p i hp hb
    rcases C140_code ix hix vesting c s0 ops h0 o k e h with ⟨_, hn⟩ | ⟨b', hb', hs, _⟩
    · rw [hn] at hb; cases hb
    · rw [hb'] at hb; cases hb
      rcases hs with ⟨q, j, hq, hc⟩ | hf
      · simp only [moduleCode, List.cons.injEq, and_true, true_and] at hc
        have := number_inj hix hc.1
        subst this
        obtain ⟨hi, _⟩ := List.getElem?_eq_some_iff.1 hp
        obtain ⟨hj, _⟩ := List.getElem?_eq_some_iff.1 hq
        have hl := declared_short p
        have hij : i = j := by
          have := congrArg UInt8.toNat hc.2
          simp only [UInt8.toNat_ofNat'] at this
          omega
        subst hij
        rw [hp] at hq
        cases hq
      · simp [frameworkCodes, moduleCode] at hf
  · intro hm
    rcases C140_only c s0 ops h0 o k e h with h' | rfl
    · simp only [List.mem_cons, List.not_mem_nil, or_false] at hm
      have key : ∀ k : Call, .sgx .cpuSvnDecodingError ∉ mayReport k ∧ .sgx .derEncodingError ∉ mayReport k ∧
          .sgx .fmspcDecodingError ∉ mayReport k ∧ .sgx .publicKeyIsInvalid ∉ mayReport k := by
        intro k
        cases k
        case registerSgxEnclave p u m => cases m <;> simp [mayReport, chainErrors, payErrors, enclaveErrors, claimErrors]
        case claims k => cases k <;> simp [mayReport, chainErrors, payErrors, enclaveErrors, claimErrors]
        all_goals simp [mayReport, chainErrors, payErrors, enclaveErrors, claimErrors]
      rcases hm with rfl | rfl | rfl | rfl
      · exact (key k).1 h'
      · exact (key k).2.1 h'
      · exact (key k).2.2.1 h'
      · exact (key k).2.2.2 h'
    · simp at hm

/-- There are such codes: the seventh error of teerdays; and calls that are refused. -/
example : (declared .td)[6]? = some none ∧ moduleCode demoIndex .td 6 = [3, 50, 6, 0, 0, 0] ∧
    exec cfg start (.ext (.signed alice) (.unbond 50)) = .error .noBond :=
  ⟨rfl, by decide +kernel, errorOf_some (by decide +kernel)⟩

end Verif
