import Verif.Proofs.Json
import Verif.Proofs.TeerexInv
import Verif.Spec.DemoSgx
import Verif.Spec.Der

/-!
# Text formats: C89 to C95
-/

namespace Verif

open Demo

/-! ### C89 Text form of Ethereum addresses -/

/-- C89: an address is written as "0x" and its lower case hexadecimal digits. -/
theorem C89_written (a : Arr 20) : ethAddrToText a = Der.ascii "0x" ++ hexOf a.val := by
  rw [ethAddrToText, hexEncode_eq]; rfl

example : ethAddrToText (Arr.fill 20 0xaf) = Der.ascii "0xafafafafafafafafafafafafafafafafafafafaf" := by decide +kernel

/-- C89: what is read as the address `a` is exactly its hexadecimal text, in any letter case, with or without
prefix. -/
theorem C89_read_iff (s : Bytes) (a : Arr 20) :
    ethAddrOfText s = .address a ↔
      lowerCase s = hexOf a.val ∨ ∃ t, s = Der.ascii "0x" ++ t ∧ lowerCase t = hexOf a.val := by
  have hp : Der.ascii "0x" = [48, 120] := by decide +kernel
  rw [hp]
  by_cases h : ∃ t, s = [48, 120] ++ t
  · obtain ⟨t, rfl⟩ := h
    rw [ethAddrOfText_prefixed, ethDigits_address]
    constructor
    · intro h; exact .inr ⟨t, rfl, h⟩
    · rintro (h | ⟨t', ht, h⟩)
      · exfalso
        have hx : (120 : UInt8) ∈ hexOf a.val := by rw [← h]; simp [lowerCase]
        obtain ⟨n, hn, e⟩ := hexOf_mem hx
        exact (show ∀ n < 16, (120 : UInt8) ≠ hexDigit n by decide +kernel) n hn e
      · rw [List.append_cancel_left ht]; exact h
  · rw [ethAddrOfText_plain s fun t ht => h ⟨t, ht⟩, ethDigits_address]
    constructor
    · exact .inl
    · rintro (h' | ⟨t, ht, _⟩)
      · exact h'
      · exact absurd ⟨t, ht⟩ h

example : lowerCase (Der.ascii "ABCDEFabcdef0123456789ABCDEFabcdef012345") = hexOf [0xab, 0xcd, 0xef, 0xab, 0xcd, 0xef, 1, 0x23,
    0x45, 0x67, 0x89, 0xab, 0xcd, 0xef, 0xab, 0xcd, 0xef, 1, 0x23, 0x45] := by decide +kernel

/-- C89: an address that was written is read back. -/
theorem C89_round_trip (a : Arr 20) : ethAddrOfText (ethAddrToText a) = .address a :=
  (C89_read_iff _ _).mpr (.inr ⟨_, C89_written a, lowerCase_hexOf _⟩)

example : ethAddrOfText (ethAddrToText (Arr.fill 20 0xaf)) = .address (Arr.fill 20 0xaf) := C89_round_trip _

/-- C89: different addresses are never read from the same text. -/
theorem C89_unambiguous (s : Bytes) (a b : Arr 20) (ha : ethAddrOfText s = .address a) (hb : ethAddrOfText s = .address b) :
    a = b := by
  rw [ha] at hb; injection hb

example : ethAddrOfText (Der.ascii "0xABCDEFabcdef0123456789ABCDEFabcdef012345") =
    .address ⟨[0xab, 0xcd, 0xef, 0xab, 0xcd, 0xef, 1, 0x23, 0x45, 0x67, 0x89, 0xab, 0xcd, 0xef, 0xab, 0xcd, 0xef, 1, 0x23,
      0x45], rfl⟩ := by decide +kernel

/-! ### C90 Reading an Ethereum address never panics -/

/-- The full claim. It is false for the code (see `C90_refuted`). -/
def C90_Full : Prop := ∀ s : Bytes, ethAddrOfText s ≠ .panic

/-- Two digits are replaced by blanks. -/
theorem C90_refuted : ¬ C90_Full := fun h =>
  h (Der.ascii "0xABCDEFabcdef0123456789ABCDEFabcdef0123  ") (by decide +kernel)

/-- C90, partial: there is no panic for text without blanks, tabs and line breaks. Missing: a check of the number of
bytes that were decoded. -/
theorem C90_no_panic_partial (s : Bytes) (h : ∀ x ∈ s, x ≠ 32 ∧ x ≠ 13 ∧ x ≠ 10 ∧ x ≠ 9) : ethAddrOfText s ≠ .panic := by
  intro hp
  rw [ethAddrOfText_eq, ethDigits_panic] at hp
  obtain ⟨_, ⟨x, hx, hs⟩, _⟩ := hp
  obtain ⟨h1, h2, h3, h4⟩ := h x (List.mem_of_mem_drop hx)
  simp [isHexSpace, h1, h2, h3, h4] at hs

example : ∀ x ∈ Der.ascii "0xABCDEFabcdef0123456789ABCDEFabcdef012345zz", x ≠ 32 ∧ x ≠ 13 ∧ x ≠ 10 ∧ x ≠ 9 := by
  decide +kernel

/-- C90: the panic is reached whenever an even number of digits is replaced. -/
theorem C90_panics_partial (t raw : Bytes) (hl : t.length = 40) (hs : ∃ x ∈ t, x = 32)
    (hd : lowerCase (t.filter (· ≠ 32)) = hexOf raw) : ethAddrOfText (Der.ascii "0x" ++ t) = .panic := by
  have hp : Der.ascii "0x" = [48, 120] := by decide +kernel
  rw [hp, ethAddrOfText_prefixed, ethDigits_panic]
  obtain ⟨x, hx, rfl⟩ := hs
  refine ⟨hl, ⟨32, hx, rfl⟩, raw, ?_⟩
  have h1 : (t.filter fun x => !isHexSpace x) = (t.filter (· ≠ 32)).filter (fun x => !isHexSpace x) := by
    rw [List.filter_filter]
    apply List.filter_congr
    intro y _
    by_cases hy : y = 32
    · subst hy; decide
    · simp [hy]
  rw [h1, not_space hd]; exact hd

example : ∃ raw, lowerCase ((Der.ascii "ABCDEFabcdef0123456789ABCDEFabcdef0123  ").filter (· ≠ 32)) = hexOf raw :=
  ⟨[0xab, 0xcd, 0xef, 0xab, 0xcd, 0xef, 1, 0x23, 0x45, 0x67, 0x89, 0xab, 0xcd, 0xef, 0xab, 0xcd, 0xef, 1, 0x23],
    by decide +kernel⟩

/-! ### C91 Collateral round trip -/

theorem uint_ofNat {m n : Nat} (h : n ≤ m) : Json.uint m (.int n) = some n := by
  simp only [Json.uint]
  rw [if_pos ⟨by omega, by omega⟩]
  rfl

theorem ofName_name (st : TcbStatus) : TcbStatus.ofName st.name = some st := by cases st <;> decide +kernel

theorem strings_read (l : List String) : Json.vec Json.string (stringsToJson l) = some l :=
  mapM_map_some _ _ _ fun _ _ => rfl

theorem qeLevel_read (rd : String → Option Int) (wr : Int → String) (l : QeTcbLevel) (h : rd (wr l.tcbDate) = some l.tcbDate)
    (hf : l.isvsvn < 2 ^ 16) : QeTcbLevel.ofJson rd (l.toJson wr) = some l := by
  have h1 : Json.uint 65535 (.int l.isvsvn) = some l.isvsvn := uint_ofNat (by omega)
  have h2 := ofName_name l.tcbStatus
  have h3 : ∀ q, Json.vec Json.string (stringsToJson q) = some q := strings_read
  cases ha : l.advisoryIds with
  | none =>
    simp [QeTcbLevel.toJson, QeTcbLevel.ofJson, ha, optMember, Json.fields, Json.member, Json.req, Json.opt,
      qeTcbOfJson, h1, dateField, Json.string, h, TcbStatus.ofJson, h2]
    cases l; simp_all
  | some q =>
    have h4 : Json.opt (Json.vec Json.string) (some (stringsToJson q)) = some (some q) := by
      have : Json.opt (Json.vec Json.string) (some (stringsToJson q)) =
        (Json.vec Json.string (stringsToJson q)).map some := rfl
      rw [this, h3]; rfl
    simp [QeTcbLevel.toJson, QeTcbLevel.ofJson, ha, optMember, Json.fields, Json.member, Json.req,
      qeTcbOfJson, h1, dateField, Json.string, h, TcbStatus.ofJson, h2, h4]
    cases l; simp_all

/-- C91: an identity that was written is read back, if dates are. -/
theorem C91_identity_round_trip (rd : String → Option Int) (wr : Int → String) (i : EnclaveIdentity)
    (hd : ∀ d ∈ i.issueDate :: i.nextUpdate :: i.tcbLevels.map (·.tcbDate), rd (wr d) = some d) (hf : i.Fits) :
    EnclaveIdentity.ofJson rd (i.toJson wr) = some i := by
  obtain ⟨f1, f2, f3, f4⟩ := hf
  have h1 := uint_ofNat (m := 65535) (n := i.version) (by omega)
  have h2 := uint_ofNat (m := 65535) (n := i.tcbEvaluationDataNumber) (by omega)
  have h3 := uint_ofNat (m := 65535) (n := i.isvprodid) (by omega)
  have h4 : Json.vec (QeTcbLevel.ofJson rd) (.arr (i.tcbLevels.map (·.toJson wr))) = some i.tcbLevels :=
    mapM_map_some _ _ _ fun l hl => qeLevel_read rd wr l
      (hd _ (List.mem_cons_of_mem _ (List.mem_cons_of_mem _ (List.mem_map_of_mem hl)))) (f4 l hl)
  have d1 := hd i.issueDate (by simp)
  have d2 := hd i.nextUpdate (by simp)
  simp [EnclaveIdentity.toJson, EnclaveIdentity.ofJson, Json.fields, Json.member, Json.req, h1, h2, h3,
    hexField_hexToJson, dateField, Json.string, d1, d2, h4]

example : EnclaveIdentity.ofJson readDate ((identity 3).toJson dateText) = some (identity 3) :=
  C91_identity_round_trip readDate dateText (identity 3) (by decide +kernel)
    (by unfold EnclaveIdentity.Fits; decide +kernel)

theorem component_read (c : TcbComponent) : TcbComponent.ofJson c.toJson = some c := by
  have h1 := uint_ofNat (m := 255) (n := c.svn.toNat) (by have := c.svn.toNat_lt; omega)
  obtain ⟨n, a, b⟩ := c
  cases a <;> cases b <;>
    simp [TcbComponent.toJson, TcbComponent.ofJson, optMember, Json.fields, Json.member, Json.req, Json.opt,
      h1, Json.string] <;> simp_all

theorem levelFull_read (rd : String → Option Int) (wr : Int → String) (l : TcbLevelFull)
    (h : rd (wr l.tcbDate) = some l.tcbDate) (hf : l.pcesvn < 2 ^ 16) : TcbLevelFull.ofJson rd (l.toJson wr) = some l := by
  have h1 : Json.uint 65535 (.int l.pcesvn) = some l.pcesvn := uint_ofNat (by omega)
  have h2 := ofName_name l.tcbStatus
  have h5 : Json.array 16 TcbComponent.ofJson (.arr (l.components.val.map TcbComponent.toJson)) = some l.components := by
    simp only [Json.array]
    rw [mapM_map_some _ _ _ fun c _ => component_read c]
    simp [l.components.property]
  cases ha : l.advisoryIds with
  | none =>
    simp [TcbLevelFull.toJson, TcbLevelFull.ofJson, ha, optMember, Json.fields, Json.member, Json.req, Json.opt,
      tcbFullOfJson, h1, h5, dateField, Json.string, h, TcbStatus.ofJson, h2]
    cases l; simp_all
  | some q =>
    have h4 : Json.opt (Json.vec Json.string) (some (stringsToJson q)) = some (some q) := by
      have : Json.opt (Json.vec Json.string) (some (stringsToJson q)) =
        (Json.vec Json.string (stringsToJson q)).map some := rfl
      rw [this, strings_read]; rfl
    simp [TcbLevelFull.toJson, TcbLevelFull.ofJson, ha, optMember, Json.fields, Json.member, Json.req,
      tcbFullOfJson, h1, h5, dateField, Json.string, h, TcbStatus.ofJson, h2, h4]
    cases l; simp_all

/-- C91: a TCB info that was written is read back, if dates are. -/
theorem C91_tcb_info_round_trip (rd : String → Option Int) (wr : Int → String) (i : TcbInfo)
    (hd : ∀ d ∈ i.issueDate :: i.nextUpdate :: i.tcbLevels.map (·.tcbDate), rd (wr d) = some d) (hf : i.Fits) :
    TcbInfo.ofJson rd (i.toJson wr) = some i := by
  obtain ⟨f1, f2, f3, f4⟩ := hf
  have h1 := uint_ofNat (m := 255) (n := i.version) (by omega)
  have h2 := uint_ofNat (m := 65535) (n := i.tcbEvaluationDataNumber) (by omega)
  have h3 := uint_ofNat (m := 65535) (n := i.tcbType) (by omega)
  have h4 : Json.vec (TcbLevelFull.ofJson rd) (.arr (i.tcbLevels.map (·.toJson wr))) = some i.tcbLevels :=
    mapM_map_some _ _ _ fun l hl => levelFull_read rd wr l
      (hd _ (List.mem_cons_of_mem _ (List.mem_cons_of_mem _ (List.mem_map_of_mem hl)))) (f4 l hl)
  have d1 := hd i.issueDate (by simp)
  have d2 := hd i.nextUpdate (by simp)
  simp [TcbInfo.toJson, TcbInfo.ofJson, Json.fields, Json.member, Json.req, h1, h2, h3,
    hexField_hexToJson, dateField, Json.string, d1, d2, h4]

example : (∀ d ∈ (tcbInfo 3).issueDate :: (tcbInfo 3).nextUpdate :: (tcbInfo 3).tcbLevels.map (·.tcbDate),
      readDate (dateText d) = some d) ∧ (tcbInfo 3).Fits ∧ (tcbInfo 3).tcbLevels.length = 3 ∧
    (∀ d ∈ (identity 3).issueDate :: (identity 3).nextUpdate :: (identity 3).tcbLevels.map (·.tcbDate),
      readDate (dateText d) = some d) ∧ (identity 3).Fits := by
  unfold TcbInfo.Fits EnclaveIdentity.Fits
  decide +kernel

/-! ### C92 Order of members and unknown members do not matter -/

/-- C92: TCB infos with the same contents are read as the same value, or both rejected. Two documents with the same
contents are given in the examples below. -/
theorem C92_tcb_info (rd : String → Option Int) (j j' : Json) (h : SameContents collateralMembers j j') :
    TcbInfo.ofJson rd j = TcbInfo.ofJson rd j' := tcbInfo_same rd j j' h

/-- C92: the same for identities of quoting enclaves. Two documents with the same contents are given in the examples
below. -/
theorem C92_identity (rd : String → Option Int) (j j' : Json) (h : SameContents collateralMembers j j') :
    EnclaveIdentity.ofJson rd j = EnclaveIdentity.ofJson rd j' := identity_same rd j j' h

/-- Signed texts that are read alike, as far as it is used, have the same effect. -/
theorem registration_of_parse (c : Cfg) (s : Chain) (o : Origin) (d d' g g' ch : Bytes)
    (h1 : (c.ext.parseTcbInfo d).map TcbInfo.used = (c.ext.parseTcbInfo d').map TcbInfo.used)
    (h2 : (c.ext.parseIdentity d).map EnclaveIdentity.used = (c.ext.parseIdentity d').map EnclaveIdentity.used)
    (hs : SignedByIntel c.ext s.now d g ch) (hs' : SignedByIntel c.ext s.now d' g' ch) :
    exec c s (.ext o (.registerTcbInfo d g ch)) = exec c s (.ext o (.registerTcbInfo d' g' ch)) ∧
    exec c s (.ext o (.registerQuotingEnclave d g ch)) = exec c s (.ext o (.registerQuotingEnclave d' g' ch)) := by
  obtain ⟨leaf, i, inter, der, e1, e2, e3, e4, e5⟩ := hs
  obtain ⟨leaf', i', inter', der', e1', e2', e3', e4', e5'⟩ := hs'
  rw [e1] at e1'
  cases e1'
  have h3 : ∀ y, Teerex.verifyCollateralCerts c s ch = .ok y → y = leaf := by
    intro y hy
    simp only [Teerex.verifyCollateralCerts, e1] at hy
    simp only [bind_eq_ok, ensure_eq_ok, okOr_eq_ok, List.head?_cons, Option.some.injEq] at hy
    obtain ⟨_, _, x, rfl, hy⟩ := hy
    obtain ⟨_, _, _, _, hy⟩ := hy
    cases hy
    rfl
  constructor
  · simp only [exec, dispatch, Teerex.registerTcbInfo, Teerex.verifyTcbInfo]
    cases hc : Teerex.verifyCollateralCerts c s ch with
    | error e => rfl
    | ok y =>
      cases h3 y hc
      have k1 : deserializeTcbInfo c.ext d g leaf = okOr (c.ext.parseTcbInfo d) .tcbInfoIsInvalid := by
        simp [deserializeTcbInfo, e4, e5, verifySignature, ensure, bind, Except.bind]
      have k2 : deserializeTcbInfo c.ext d' g' leaf = okOr (c.ext.parseTcbInfo d') .tcbInfoIsInvalid := by
        simp [deserializeTcbInfo, e4', e5', verifySignature, ensure, bind, Except.bind]
      simp only [bind, Except.bind, k1, k2]
      generalize c.ext.parseTcbInfo d = x at *
      generalize c.ext.parseTcbInfo d' = y at *
      cases x <;> cases y <;> simp only [Option.map_none, Option.map_some, reduceCtorEq, Option.some.injEq] at h1
      · rfl
      · obtain ⟨u1, u2⟩ := tcbInfo_used h1
        simp only [okOr, mapErr, u1, u2]
  · simp only [exec, dispatch, Teerex.registerQuotingEnclave, Teerex.verifyQuotingEnclave]
    cases hc : Teerex.verifyCollateralCerts c s ch with
    | error e => rfl
    | ok y =>
      cases h3 y hc
      have k1 : deserializeEnclaveIdentity c.ext d g leaf = okOr (c.ext.parseIdentity d) .enclaveIdentityDecodingError := by
        simp [deserializeEnclaveIdentity, e4, e5, verifySignature, ensure, mapErr, bind, Except.bind]
      have k2 : deserializeEnclaveIdentity c.ext d' g' leaf = okOr (c.ext.parseIdentity d') .enclaveIdentityDecodingError := by
        simp [deserializeEnclaveIdentity, e4', e5', verifySignature, ensure, mapErr, bind, Except.bind]
      simp only [bind, Except.bind, k1, k2]
      generalize c.ext.parseIdentity d = x at *
      generalize c.ext.parseIdentity d' = y at *
      cases x <;> cases y <;> simp only [Option.map_none, Option.map_some, reduceCtorEq, Option.some.injEq] at h2
      · rfl
      · obtain ⟨u1, u2⟩ := identity_used h2
        simp only [okOr, mapErr, u1, u2]

/-- The configuration in which every text is read as the given tree; used in proofs only. -/
def Cfg.reading (c : Cfg) (j : Json) : Cfg := { c with ext := { c.ext with json := fun _ => some j } }

theorem tcbInfo_reading (c : Cfg) (s : Chain) (o : Origin) (d g ch : Bytes) (j : Json)
    (h1 : (c.ext.parseTcbInfo d).map TcbInfo.used = (TcbInfo.ofJson c.ext.parseDate j).map TcbInfo.used) :
    exec c s (.ext o (.registerTcbInfo d g ch)) = exec (c.reading j) s (.ext o (.registerTcbInfo d g ch)) := by
  simp only [exec, dispatch, Teerex.registerTcbInfo, Teerex.verifyTcbInfo]
  have h3 : Teerex.verifyCollateralCerts (c.reading j) s ch = Teerex.verifyCollateralCerts c s ch := rfl
  rw [h3]
  cases Teerex.verifyCollateralCerts c s ch with
  | error e => rfl
  | ok leaf =>
    have h4 : ∀ x, verifySignature (c.reading j).ext leaf d x .ecdsaP256Sha256 = verifySignature c.ext leaf d x .ecdsaP256Sha256 :=
      fun _ => rfl
    have h5 : (c.reading j).ext.parseTcbInfo d = TcbInfo.ofJson c.ext.parseDate j := rfl
    simp only [bind, Except.bind, deserializeTcbInfo, h4, h5]
    generalize c.ext.parseTcbInfo d = x at *
    generalize TcbInfo.ofJson c.ext.parseDate j = y at *
    cases encodeAsDer g with
    | error e => rfl
    | ok der =>
      simp only
      cases verifySignature c.ext leaf d der .ecdsaP256Sha256 with
      | error e => rfl
      | ok _ =>
        cases x <;> cases y <;> simp only [Option.map_none, Option.map_some, reduceCtorEq, Option.some.injEq] at h1
        · rfl
        · obtain ⟨u1, u2⟩ := tcbInfo_used h1
          simp only [okOr, mapErr, u1, u2]

theorem identity_reading (c : Cfg) (s : Chain) (o : Origin) (d g ch : Bytes) (j : Json)
    (h1 : (c.ext.parseIdentity d).map EnclaveIdentity.used = (EnclaveIdentity.ofJson c.ext.parseDate j).map EnclaveIdentity.used) :
    exec c s (.ext o (.registerQuotingEnclave d g ch)) = exec (c.reading j) s (.ext o (.registerQuotingEnclave d g ch)) := by
  simp only [exec, dispatch, Teerex.registerQuotingEnclave, Teerex.verifyQuotingEnclave]
  have h3 : Teerex.verifyCollateralCerts (c.reading j) s ch = Teerex.verifyCollateralCerts c s ch := rfl
  rw [h3]
  cases Teerex.verifyCollateralCerts c s ch with
  | error e => rfl
  | ok leaf =>
    have h4 : ∀ x, verifySignature (c.reading j).ext leaf d x .ecdsaP256Sha256 = verifySignature c.ext leaf d x .ecdsaP256Sha256 :=
      fun _ => rfl
    have h5 : (c.reading j).ext.parseIdentity d = EnclaveIdentity.ofJson c.ext.parseDate j := rfl
    simp only [bind, Except.bind, deserializeEnclaveIdentity, h4, h5]
    generalize c.ext.parseIdentity d = x at *
    generalize EnclaveIdentity.ofJson c.ext.parseDate j = y at *
    cases encodeAsDer g with
    | error e => rfl
    | ok der =>
      simp only
      cases verifySignature c.ext leaf d der .ecdsaP256Sha256 with
      | error e => rfl
      | ok _ =>
        cases x <;> cases y <;> simp only [Option.map_none, Option.map_some, reduceCtorEq, Option.some.injEq] at h1
        · rfl
        · obtain ⟨u1, u2⟩ := identity_used h1
          simp only [okOr, mapErr, u1, u2]

/-- C92: registering signed texts with the same contents has the same effect. Such texts are the ones in the example with
`sampleDoc` in `Props/Texts`. -/
theorem C92_registration (c : Cfg) (s : Chain) (o : Origin) (d d' g g' ch : Bytes) (j j' : Json)
    (hj : c.ext.json d = some j) (hj' : c.ext.json d' = some j') (h : SameContents collateralMembers j j')
    (hs : SignedByIntel c.ext s.now d g ch) (hs' : SignedByIntel c.ext s.now d' g' ch) :
    exec c s (.ext o (.registerTcbInfo d g ch)) = exec c s (.ext o (.registerTcbInfo d' g' ch)) ∧
    exec c s (.ext o (.registerQuotingEnclave d g ch)) = exec c s (.ext o (.registerQuotingEnclave d' g' ch)) := by
  have h1 : c.ext.parseTcbInfo d = c.ext.parseTcbInfo d' := by
    simp [Ext.parseTcbInfo, hj, hj', C92_tcb_info _ _ _ h]
  have h2 : c.ext.parseIdentity d = c.ext.parseIdentity d' := by
    simp [Ext.parseIdentity, hj, hj', C92_identity _ _ _ h]
  exact registration_of_parse c s o d d' g g' ch (congrArg _ h1) (congrArg _ h2) hs hs'

theorem same_of_named {N : List String} {l l' : List (String × Json)} (hk : ∃ n ∈ N, named l n ≠ [])
    (h : ∀ n ∈ N, named l n = named l' n) : SameContents N (.obj l) (.obj l') := by
  refine .obj l l' hk (fun n hn => by rw [h n hn]) fun n hn k a b ha hb => ?_
  rw [h n hn, hb] at ha
  cases ha
  exact .refl _

theorem named_swap {a b : String} (h : a ≠ b) (x y : Json) (n : String) :
    named [(a, x), (b, y)] n = named [(b, y), (a, x)] n := by
  simp only [named, List.filter_cons, List.filter_nil]
  by_cases ha : a = n
  · subst ha; simp [Ne.symm h]
  · simp [ha]

/-- Two members are swapped. -/
example : SameContents collateralMembers (.obj [("sgxtcbcomponents", .arr []), ("pcesvn", .int 7)])
    (.obj [("pcesvn", .int 7), ("sgxtcbcomponents", .arr [])]) :=
  same_of_named ⟨"sgxtcbcomponents", by decide +kernel, by simp [named]⟩ fun n _ => named_swap (by decide +kernel) _ _ n

/-- A member is added. -/
example (v : Json) : SameContents collateralMembers (.obj [("svn", .int 7)]) (.obj [("comment", v), ("svn", .int 7)]) := by
  refine same_of_named ⟨"svn", by decide +kernel, by simp [named]⟩ fun n hn => ?_
  have : "comment" ≠ n := (by decide +kernel : ∀ n ∈ collateralMembers, "comment" ≠ n) n hn
  unfold named
  rw [List.filter_cons (x := ("comment", v)), if_neg (by simpa using this)]

/-! ### C93, C94 Documents and what is stored for them -/

theorem uint_some {m : Nat} {n : Int} {v : Nat} : Json.uint m (.int n) = some v ↔ n = v ∧ v ≤ m := by
  simp only [Json.uint]
  constructor
  · intro h
    split at h
    · cases h; omega
    · cases h
  · rintro ⟨rfl, h⟩
    rw [if_pos (by omega)]; rfl

theorem component_doc (n : Int) (r : TcbComponent) :
    TcbComponent.ofJson (.obj [("svn", .int n)]) = some r ↔ r = ⟨r.svn, none, none⟩ ∧ n = r.svn.toNat := by
  have h0 : Json.fields ["svn", "category", "type"] (.obj [("svn", .int n)]) = some [some (.int n), none, none] := by
    simp [Json.fields, Json.member]
  simp only [TcbComponent.ofJson, h0, Option.bind_eq_bind, Option.bind_some, Option.bind_eq_some_iff, Json.req, Json.opt,
    uint_some, Option.some.injEq]
  constructor
  · rintro ⟨a, ⟨rfl, h1⟩, rfl⟩
    refine ⟨rfl, ?_⟩
    simp only [UInt8.toNat_ofNat']
    omega
  · rintro ⟨h, rfl⟩
    have := r.svn.toNat_lt
    refine ⟨_, ⟨rfl, by omega⟩, ?_⟩
    rw [h]; simp

theorem components_doc (svns : List Int) (r : { l : List TcbComponent // l.length = 16 }) :
    Json.array 16 TcbComponent.ofJson (.arr (svns.map fun n => .obj [("svn", .int n)])) = some r →
      r.val.map (fun t => (t.svn.toNat : Int)) = svns := by
  intro h
  simp only [Json.array, Option.bind_eq_some_iff, mapM_some_iff, List.map_map] at h
  obtain ⟨q, hq, h⟩ := h
  split at h
  · cases h
    simp only
    rename_i hl
    clear hl
    induction q generalizing svns with
    | nil => cases svns with
      | nil => rfl
      | cons => simp at hq
    | cons a q ih =>
      cases svns with
      | nil => simp at hq
      | cons n svns =>
        simp only [List.map_cons, List.cons.injEq, Function.comp_apply] at hq ⊢
        exact ⟨((component_doc n a).mp hq.1).2.symm, ih svns hq.2⟩
  · cases h

theorem components_doc_ok (svns : List Int) (hl : svns.length = 16) (h : ∀ n ∈ svns, 0 ≤ n ∧ n < 2 ^ 8) :
    ∃ r, Json.array 16 TcbComponent.ofJson (.arr (svns.map fun n => .obj [("svn", .int n)])) = some r := by
  refine ⟨⟨svns.map fun n => ⟨UInt8.ofNat n.toNat, none, none⟩, by simpa using hl⟩, ?_⟩
  simp only [Json.array]
  have : (svns.map fun n => Json.obj [("svn", .int n)]).mapM TcbComponent.ofJson =
      some (svns.map fun n => ⟨UInt8.ofNat n.toNat, none, none⟩) := by
    rw [mapM_some_iff, List.map_map, List.map_map]
    apply List.map_congr_left
    intro n hn
    obtain ⟨h1, h2⟩ := h n hn
    simp only [Function.comp_apply]
    rw [component_doc]
    refine ⟨rfl, ?_⟩
    simp only [UInt8.toNat_ofNat']
    omega
  rw [this]
  simp [hl]

theorem ofName_some {s : String} {st : TcbStatus} (h : TcbStatus.ofName s = some st) : (s, st) ∈ statusNames := by
  have := List.find?_some h
  simp only [beq_iff_eq] at this
  subst this
  cases st <;> decide

theorem level_fields (l : TcbLevelDoc) : Json.fields ["tcb", "tcbDate", "tcbStatus", "advisoryIDs"] l.json =
    some [some (.obj [("sgxtcbcomponents", .arr (l.svns.map fun n => .obj [("svn", .int n)])), ("pcesvn", .int l.pcesvn)]),
      some (.str l.date false), some (.str l.status false), none] := by
  simp [Json.fields, Json.member, TcbLevelDoc.json]

theorem full_fields (a b : Json) : Json.fields ["sgxtcbcomponents", "pcesvn"] (.obj [("sgxtcbcomponents", a), ("pcesvn", b)]) =
    some [some a, some b] := by
  simp [Json.fields, Json.member]

theorem level_doc (rd : String → Option Int) (l : TcbLevelDoc) (r : TcbLevelFull)
    (h : TcbLevelFull.ofJson rd l.json = some r) :
    r.components.val.map (fun t => (t.svn.toNat : Int)) = l.svns ∧ (r.pcesvn : Int) = l.pcesvn ∧
      (l.status, r.tcbStatus) ∈ statusNames := by
  simp only [TcbLevelFull.ofJson, level_fields, full_fields, Option.bind_eq_bind, Option.bind_some, Option.bind_eq_some_iff,
    Json.req, tcbFullOfJson, Option.some.injEq] at h
  obtain ⟨p, ⟨comps, h1, n, h2, rfl⟩, d, h3, st, h4, ids, h5, rfl⟩ := h
  exact ⟨components_doc _ _ h1, (uint_some.mp h2).1.symm, ofName_some h4⟩

theorem level_doc_ok (rd : String → Option Int) (l : TcbLevelDoc) (h1 : l.svns.length = 16)
    (h2 : ∀ n ∈ l.svns, 0 ≤ n ∧ n < 2 ^ 8) (h3 : 0 ≤ l.pcesvn ∧ l.pcesvn < 2 ^ 16) (h4 : ∃ d, rd l.date = some d)
    (h5 : ∃ st, TcbStatus.ofName l.status = some st) : ∃ r, TcbLevelFull.ofJson rd l.json = some r := by
  obtain ⟨comps, h1⟩ := components_doc_ok l.svns h1 h2
  obtain ⟨d, h4⟩ := h4
  obtain ⟨st, h5⟩ := h5
  refine ⟨⟨comps, l.pcesvn.toNat, d, st, none⟩, ?_⟩
  have h6 : Json.uint 65535 (.int l.pcesvn) = some l.pcesvn.toNat := uint_some.mpr ⟨by omega, by omega⟩
  simp only [TcbLevelFull.ofJson, level_fields, full_fields, Option.bind_eq_bind, Option.bind_some, Json.req, tcbFullOfJson, h1,
    h6, TcbStatus.ofJson, h5, dateField, Json.string, h4, Json.opt]

theorem mapM_total {α β : Type} (f : α → Option β) (l : List α) (h : ∀ a ∈ l, ∃ b, f a = some b) :
    ∃ r, l.mapM f = some r := by
  induction l with
  | nil => exact ⟨[], rfl⟩
  | cons a l ih =>
    obtain ⟨b, hb⟩ := h a (by simp)
    obtain ⟨r, hr⟩ := ih fun a ha => h a (by simp [ha])
    exact ⟨b :: r, by rw [List.mapM_cons, hb, hr]; rfl⟩

theorem tcbInfo_doc (rd : String → Option Int) (i : TcbInfoDoc) (r : TcbInfo) :
    TcbInfo.ofJson rd i.json = some r ↔
      r.id = i.id ∧ (r.version : Int) = i.version ∧ r.version < 2 ^ 8 ∧ rd i.issueDate = some r.issueDate ∧
      rd i.nextUpdate = some r.nextUpdate ∧ hexField 6 (.str (ofAscii i.fmspc) false) = some r.fmspc ∧ r.pceId = i.pceId ∧
      (r.tcbType : Int) = i.tcbType ∧ r.tcbType < 2 ^ 16 ∧ (r.tcbEvaluationDataNumber : Int) = i.evaluation ∧
      r.tcbEvaluationDataNumber < 2 ^ 16 ∧ (i.levels.map (·.json)).mapM (TcbLevelFull.ofJson rd) = some r.tcbLevels := by
  have h0 : Json.fields ["id", "version", "issueDate", "nextUpdate", "fmspc", "pceId", "tcbType", "tcbEvaluationDataNumber",
      "tcbLevels"] i.json = some [some (.str i.id false), some (.int i.version), some (.str i.issueDate false),
      some (.str i.nextUpdate false), some (.str (ofAscii i.fmspc) false), some (.str i.pceId false), some (.int i.tcbType),
      some (.int i.evaluation), some (.arr (i.levels.map (·.json)))] := by
    simp [Json.fields, Json.member, TcbInfoDoc.json]
  simp only [TcbInfo.ofJson, h0, Option.bind_eq_bind, Option.bind_some, Option.bind_eq_some_iff, Json.req, dateField,
    Json.string, uint_some, Json.vec, Option.some.injEq]
  constructor
  · rintro ⟨v, ⟨hv, hv'⟩, d, hd, e, he, f, hf, t, ⟨ht, ht'⟩, n, ⟨hn, hn'⟩, ls, hls, rfl⟩
    exact ⟨rfl, hv.symm, by simp only; omega, hd, he, hf, rfl, ht.symm, by simp only; omega, hn.symm, by simp only; omega, hls⟩
  · rintro ⟨h1, h2, h3, h4, h5, h6, h7, h8, h9, h10, h11, h12⟩
    refine ⟨_, ⟨h2.symm, by omega⟩, _, h4, _, h5, _, h6, _, ⟨h8.symm, by omega⟩, _, ⟨h10.symm, by omega⟩, _, h12, ?_⟩
    cases r; simp_all

theorem mapM_getElem {α β : Type} {f : α → Option β} {l : List α} {r : List β} (h : l.mapM f = some r) :
    l.length = r.length ∧ ∀ k (h1 : k < l.length) (h2 : k < r.length), f l[k] = some r[k] := by
  rw [mapM_some_iff] at h
  have hl := congrArg List.length h
  simp only [List.length_map] at hl
  refine ⟨hl, fun k h1 h2 => ?_⟩
  have h3 : (l.map f)[k]'(by simpa using h1) = (r.map some)[k]'(by simpa using h2) := by simp only [h]
  simpa using h3

/-- C94: what is stored for a document are exactly the numbers, dates and status values in it; numbers that do not fit
are never truncated. The hypotheses are met by the example with `oneLevel` below. -/
theorem C94_stored_as_published (c : Cfg) (s s' : Chain) (o : Origin) (data sig chain : Bytes) (doc : TcbInfoDoc)
    (ha : ∀ x ∈ doc.fmspc, x < 128) (hj : c.ext.json data = some doc.json)
    (h : exec c s (.ext o (.registerTcbInfo data sig chain)) = .ok s') :
    ∃ f info, s'.tx.tcb f = some info ∧ doc.StoredAs c.ext.parseDate f info := by
  simp only [exec, dispatch] at h
  obtain ⟨_, f, info, _, hv, rfl⟩ := Teerex.registerTcbInfo_ok.mp h
  obtain ⟨_, leaf, i, inter, der, p, _, _, _, _, _, hp, _, _, _, _, rfl, hi, hn, hl, hk⟩ := signedTcbInfo_iff.mp hv
  refine ⟨p.fmspc, info, by simp, ?_⟩
  simp only [Ext.parseTcbInfo, hj, Option.bind_some] at hp
  obtain ⟨_, _, _, d1, d2, hf, _, _, _, _, _, hls⟩ := (tcbInfo_doc _ _ _).mp hp
  obtain ⟨hlen, hlev⟩ := mapM_getElem hls
  rw [List.length_map] at hlen
  refine ⟨(hexField_doc _ ha _).mp hf, by rw [d1, hi], by rw [d2, hn], by omega, fun k h1 h2 => ?_⟩
  have h3 := hlev k (by simpa using h2) (by omega)
  simp only [List.getElem_map] at h3
  obtain ⟨e1, e2, e3⟩ := level_doc _ _ _ h3
  obtain ⟨g1, g2, g3⟩ := hk k h1 (by omega)
  refine ⟨?_, by rw [g2, e2], by rw [g3]; exact e3⟩
  rw [g1, List.map_map, ← e1]
  rfl

/-- The full claim. It is false for the code (see `C93_refuted`). -/
def C93_Full : Prop := ∀ (c : Cfg) (s : Chain) (a : AccountId) (data sig chain : Bytes) (doc : TcbInfoDoc),
  s.now < 2 ^ 63 → c.ext.json data = some doc.json → SignedByIntel c.ext s.now data sig chain →
  doc.Valid c.ext.parseDate s.now → ∃ s', exec c s (.ext (.signed a) (.registerTcbInfo data sig chain)) = .ok s'

/-- C93, partial: every document without a level of status "ConfigurationNeeded" can be registered by anybody.
Missing: the status "ConfigurationNeeded". The hypotheses are met by the example with `oneLevel` below. -/
theorem C93_accepted_partial (c : Cfg) (s : Chain) (a : AccountId) (data sig chain : Bytes) (doc : TcbInfoDoc)
    (hnow : s.now < 2 ^ 63) (hj : c.ext.json data = some doc.json) (hs : SignedByIntel c.ext s.now data sig chain)
    (hv : doc.Valid c.ext.parseDate s.now) (hst : ∀ l ∈ doc.levels, l.status ≠ "ConfigurationNeeded") :
    ∃ s', exec c s (.ext (.signed a) (.registerTcbInfo data sig chain)) = .ok s' := by
  obtain ⟨d, hd, hd0, hdn⟩ := hv.issued
  obtain ⟨e, he, hen⟩ := hv.next
  obtain ⟨hfa, f, hf⟩ := hv.fmspc
  obtain ⟨ls, hls⟩ := mapM_total (TcbLevelFull.ofJson c.ext.parseDate) (doc.levels.map (·.json)) (by
    intro j hj
    simp only [List.mem_map] at hj
    obtain ⟨l, hl, rfl⟩ := hj
    obtain ⟨h1, h2, h3, h4, h5, h6⟩ := hv.levels l hl
    refine level_doc_ok _ l h1 h2 ⟨h3, h4⟩ h5 ?_
    have h7 := hst l hl
    have h8 : ∀ st ∈ intelStatuses, st ≠ "ConfigurationNeeded" → (TcbStatus.ofName st).isSome = true := by decide +kernel
    exact Option.isSome_iff_exists.mp (h8 _ h6 h7))
  obtain ⟨leaf, i, inter, der, e1, e2, e3, e4, e5⟩ := hs
  have hr := hv.tcbType
  have hr' := hv.evaluation
  have hp : TcbInfo.ofJson c.ext.parseDate doc.json = some
      { id := doc.id, version := 3, issueDate := d, nextUpdate := e, fmspc := f, pceId := doc.pceId,
        tcbType := doc.tcbType.toNat, tcbEvaluationDataNumber := doc.evaluation.toNat, tcbLevels := ls } := by
    rw [tcbInfo_doc]
    refine ⟨rfl, ?_, by simp, hd, he, (hexField_doc _ hfa _).mpr hf, rfl, ?_, ?_, ?_, ?_, hls⟩
    · rw [hv.version]; rfl
    all_goals simp only; omega
  have hinfo : ∃ p : Fmspc × SgxTcbInfoOnChain, TcbInfo.toChain {
        id := doc.id, version := 3, issueDate := d, nextUpdate := e, fmspc := f, pceId := doc.pceId, tcbType := doc.tcbType.toNat, tcbEvaluationDataNumber := doc.evaluation.toNat, tcbLevels := ls } = some p := by
    have h0 : (0 : Int) ≤ e := by omega
    simp [TcbInfo.toChain, millisToU64, hd0, h0]
  obtain ⟨⟨f', info⟩, hinfo⟩ := hinfo
  refine ⟨_, Teerex.registerTcbInfo_ok.mpr ⟨a, f', info, rfl, signedTcbInfo_iff.mpr ⟨hnow, leaf, i, inter, der, _, e1, e2, e3,
    e4, e5, ?_, hv.id, rfl, hdn, hen, toChain_iff.mp hinfo⟩, rfl⟩⟩
  rw [Ext.parseTcbInfo, hj]; exact hp

/-- A document with one level, of the given status. -/
def oneLevel (status : String) : TcbInfoDoc where
  id := "SGX"
  version := 3
  issueDate := "3"
  nextUpdate := "6000"
  fmspc := Der.ascii "00606a000000"
  pceId := "0000"
  tcbType := 0
  evaluation := 16
  levels := [⟨List.replicate 16 4, 13, "0", status⟩]

theorem oneLevel_valid (status : String) (h : status ∈ intelStatuses) : (oneLevel status).Valid readDate 5000 where
  id := rfl
  version := rfl
  issued := ⟨3, (by decide +kernel : readDate "3" = some 3), by decide, by decide⟩
  next := ⟨6000, (by decide +kernel : readDate "6000" = some 6000), by decide⟩
  fmspc := ⟨(by decide +kernel : ∀ x ∈ Der.ascii "00606a000000", x < 128),
    ⟨[0, 0x60, 0x6a, 0, 0, 0], rfl⟩, (by decide +kernel : lowerCase (Der.ascii "00606a000000") = hexOf [0, 0x60, 0x6a, 0, 0, 0])⟩
  tcbType := (by decide : (0 : Int) ≤ 0 ∧ (0 : Int) < 2 ^ 16)
  evaluation := (by decide : (0 : Int) ≤ 16 ∧ (16 : Int) < 2 ^ 16)
  levels := by
    intro l hl
    simp only [oneLevel, List.mem_singleton] at hl
    subst hl
    exact ⟨rfl, (by decide : ∀ n ∈ List.replicate 16 (4 : Int), 0 ≤ n ∧ n < 2 ^ 8), (by decide : (0 : Int) ≤ 13),
      (by decide : (13 : Int) < 2 ^ 16), ⟨0, (by decide +kernel : readDate "0" = some 0)⟩, h⟩

/-- Configuration whose JSON parser yields a document with one level. -/
def docCfg (status : String) : Cfg := { okCfg with ext := { okExt with json := fun _ => some (oneLevel status).json } }

/-- A level of status "ConfigurationNeeded" makes the whole document unreadable. -/
theorem C93_refuted : ¬ C93_Full := by
  intro h
  obtain ⟨s', hs⟩ := h (docCfg "ConfigurationNeeded") Demo.start alice [1] (bytes 64 1) pem (oneLevel "ConfigurationNeeded")
    (by decide) rfl ⟨iasQuote, iasQuote, [], _, by decide +kernel, rfl, rfl, rfl, rfl⟩ (oneLevel_valid _ (by decide +kernel))
  have h2 : (exec (docCfg "ConfigurationNeeded") Demo.start (.ext (.signed alice) (.registerTcbInfo [1] (bytes 64 1) pem))).isOk =
    false := by decide +kernel
  rw [hs] at h2
  cases h2

example : (oneLevel "OutOfDate").Valid (docCfg "OutOfDate").ext.parseDate Demo.start.now ∧
    (∀ l ∈ (oneLevel "OutOfDate").levels, l.status ≠ "ConfigurationNeeded") ∧
    (exec (docCfg "OutOfDate") Demo.start (.ext (.signed alice) (.registerTcbInfo [1] (bytes 64 1) pem))).isOk = true :=
  ⟨oneLevel_valid _ (by decide +kernel), by decide +kernel, by decide +kernel⟩

/-! ### C95 Identity documents -/

theorem qeLevel_doc (rd : String → Option Int) (l : Int × String × String) (r : QeTcbLevel) :
    QeTcbLevel.ofJson rd (.obj [("tcb", .obj [("isvsvn", .int l.1)]), ("tcbDate", .str l.2.1 false),
      ("tcbStatus", .str l.2.2 false)]) = some r ↔
    (r.isvsvn : Int) = l.1 ∧ r.isvsvn < 2 ^ 16 ∧ rd l.2.1 = some r.tcbDate ∧
      TcbStatus.ofName l.2.2 = some r.tcbStatus ∧ r.advisoryIds = none := by
  have h0 : ∀ a b c : Json, Json.fields ["tcb", "tcbDate", "tcbStatus", "advisoryIDs"]
      (.obj [("tcb", a), ("tcbDate", b), ("tcbStatus", c)]) = some [some a, some b, some c, none] := by
    intro a b c
    simp [Json.fields, Json.member]
  have h1 : ∀ a : Json, Json.fields ["isvsvn"] (.obj [("isvsvn", a)]) = some [some a] := by
    intro a
    simp [Json.fields, Json.member]
  simp only [QeTcbLevel.ofJson, h0, h1, qeTcbOfJson, Option.bind_eq_bind, Option.bind_some, Option.bind_eq_some_iff, Json.req,
    dateField, Json.string, uint_some, Option.some.injEq, Json.opt, TcbStatus.ofJson]
  constructor
  · rintro ⟨n, ⟨hn, hn'⟩, d, hd, st, hst, rfl⟩
    exact ⟨hn.symm, by simp only; omega, hd, hst, rfl⟩
  · rintro ⟨h1, h2, h3, h4, h5⟩
    refine ⟨_, ⟨h1.symm, by omega⟩, _, h3, _, h4, ?_⟩
    cases r; simp_all

theorem identity_doc (rd : String → Option Int) (i : IdentityDoc) (r : EnclaveIdentity) :
    EnclaveIdentity.ofJson rd i.json = some r ↔
      r.id = i.id ∧ (r.version : Int) = i.version ∧ r.version < 2 ^ 16 ∧ rd i.issueDate = some r.issueDate ∧
      rd i.nextUpdate = some r.nextUpdate ∧ (r.tcbEvaluationDataNumber : Int) = i.evaluation ∧
      r.tcbEvaluationDataNumber < 2 ^ 16 ∧ hexField 4 (.str (ofAscii i.miscselect) false) = some r.miscselect ∧
      hexField 4 (.str (ofAscii i.miscselectMask) false) = some r.miscselectMask ∧
      hexField 16 (.str (ofAscii i.attributes) false) = some r.attributes ∧
      hexField 16 (.str (ofAscii i.attributesMask) false) = some r.attributesMask ∧
      hexField 32 (.str (ofAscii i.mrsigner) false) = some r.mrsigner ∧
      (r.isvprodid : Int) = i.isvprodid ∧ r.isvprodid < 2 ^ 16 ∧
      (i.levels.map fun l => Json.obj [("tcb", .obj [("isvsvn", .int l.1)]), ("tcbDate", .str l.2.1 false),
        ("tcbStatus", .str l.2.2 false)]).mapM (QeTcbLevel.ofJson rd) = some r.tcbLevels := by
  have h0 : Json.fields ["id", "version", "issueDate", "nextUpdate", "tcbEvaluationDataNumber", "miscselect",
      "miscselectMask", "attributes", "attributesMask", "mrsigner", "isvprodid", "tcbLevels"] i.json =
      some [some (.str i.id false), some (.int i.version), some (.str i.issueDate false),
      some (.str i.nextUpdate false), some (.int i.evaluation), some (.str (ofAscii i.miscselect) false),
      some (.str (ofAscii i.miscselectMask) false), some (.str (ofAscii i.attributes) false),
      some (.str (ofAscii i.attributesMask) false), some (.str (ofAscii i.mrsigner) false), some (.int i.isvprodid),
      some (.arr (i.levels.map fun l => .obj [("tcb", .obj [("isvsvn", .int l.1)]), ("tcbDate", .str l.2.1 false),
        ("tcbStatus", .str l.2.2 false)]))] := by
    simp [Json.fields, Json.member, IdentityDoc.json]
  simp only [EnclaveIdentity.ofJson, h0, Option.bind_eq_bind, Option.bind_some, Option.bind_eq_some_iff, Json.req, dateField,
    Json.string, uint_some, Json.vec, Option.some.injEq, exists_eq_left']
  constructor
  · rintro ⟨v, ⟨hv, hv'⟩, d, hd, e, he, n, ⟨hn, hn'⟩, a1, h1, a2, h2, a3, h3, a4, h4, a5, h5, t, ⟨ht, ht'⟩, ls, hls, rfl⟩
    exact ⟨rfl, hv.symm, by simp only; omega, hd, he, hn.symm, by simp only; omega, h1, h2, h3, h4, h5, ht.symm,
      by simp only; omega, hls⟩
  · rintro ⟨h1, h2, h3, h4, h5, h6, h7, h8, h9, h10, h11, h12, h13, h14, h15⟩
    refine ⟨_, ⟨h2.symm, by omega⟩, _, h4, _, h5, _, ⟨h6.symm, by omega⟩, _, h8, _, h9, _, h10, _, h11, _, h12, _,
      ⟨h13.symm, by omega⟩, _, h15, ?_⟩
    cases r; simp_all

theorem IdentityDoc.Ascii.parts {i : IdentityDoc} (h : i.Ascii) :
    (∀ x ∈ i.miscselect, x < 128) ∧ (∀ x ∈ i.miscselectMask, x < 128) ∧ (∀ x ∈ i.attributes, x < 128) ∧
    (∀ x ∈ i.attributesMask, x < 128) ∧ (∀ x ∈ i.mrsigner, x < 128) := by
  unfold IdentityDoc.Ascii at h
  simp only [List.mem_append] at h
  refine ⟨fun x hx => h x ?_, fun x hx => h x ?_, fun x hx => h x ?_, fun x hx => h x ?_, fun x hx => h x ?_⟩ <;> simp [hx]

/-- C95: what is stored for an identity document are exactly the values in it. The hypotheses are met by the example
with `twoLevels` below. -/
theorem C95_stored_as_published (c : Cfg) (s s' : Chain) (o : Origin) (data sig chain : Bytes) (doc : IdentityDoc)
    (ha : doc.Ascii) (hj : c.ext.json data = some doc.json)
    (h : exec c s (.ext o (.registerQuotingEnclave data sig chain)) = .ok s') :
    doc.StoredAs c.ext.parseDate s'.tx.qe := by
  simp only [exec, dispatch] at h
  obtain ⟨_, q, _, hv, rfl⟩ := Teerex.registerQuotingEnclave_ok.mp h
  obtain ⟨_, leaf, i, inter, der, p, _, _, _, _, _, hp, _, _, _, _, hi, hn, h1, h2, h3, h4, h5, h6, h7⟩ :=
    signedIdentity_iff.mp hv
  simp only [Ext.parseIdentity, hj, Option.bind_some] at hp
  obtain ⟨_, _, _, d1, d2, _, _, f1, f2, f3, f4, f5, n1, _, hls⟩ := (identity_doc _ _ _).mp hp
  obtain ⟨a1, a2, a3, a4, a5⟩ := ha.parts
  simp only
  refine ⟨by rw [d1, hi], by rw [d2, hn], by rw [h1]; exact (hexField_doc _ a1 _).mp f1,
    by rw [h2]; exact (hexField_doc _ a2 _).mp f2, by rw [h3]; exact (hexField_doc _ a3 _).mp f3,
    by rw [h4]; exact (hexField_doc _ a4 _).mp f4, by rw [h5]; exact (hexField_doc _ a5 _).mp f5, by rw [h6, n1], ?_⟩
  rw [h7]
  obtain ⟨hlen, hlev⟩ := mapM_getElem hls
  rw [List.length_map] at hlen
  apply List.ext_getElem (by simpa using hlen.symm)
  intro k k1 k2
  have k3 : k < doc.levels.length := by simpa using k2
  have h8 := hlev k (by simpa using k3) (by simpa using k1)
  simp only [List.getElem_map] at h8 ⊢
  exact ((qeLevel_doc _ _ _).mp h8).1

/-- C95: every valid identity document that is signed by Intel can be registered by anybody. -/
theorem C95_accepted (c : Cfg) (s : Chain) (a : AccountId) (data sig chain : Bytes) (doc : IdentityDoc)
    (hnow : s.now < 2 ^ 63) (hj : c.ext.json data = some doc.json) (hs : SignedByIntel c.ext s.now data sig chain)
    (hv : doc.Valid c.ext.parseDate s.now) :
    ∃ s', exec c s (.ext (.signed a) (.registerQuotingEnclave data sig chain)) = .ok s' := by
  obtain ⟨d, hd, hd0, hdn⟩ := hv.issued
  obtain ⟨e, he, hen⟩ := hv.next
  obtain ⟨a1, a2, a3, a4, a5⟩ := hv.ascii.parts
  obtain ⟨m1, hm1⟩ := hv.miscselect
  obtain ⟨m2, hm2⟩ := hv.miscselectMask
  obtain ⟨m3, hm3⟩ := hv.attributes
  obtain ⟨m4, hm4⟩ := hv.attributesMask
  obtain ⟨m5, hm5⟩ := hv.mrsigner
  obtain ⟨ls, hls⟩ := mapM_total (QeTcbLevel.ofJson c.ext.parseDate) (doc.levels.map fun l =>
      Json.obj [("tcb", .obj [("isvsvn", .int l.1)]), ("tcbDate", .str l.2.1 false), ("tcbStatus", .str l.2.2 false)]) (by
    intro j hj
    simp only [List.mem_map] at hj
    obtain ⟨l, hl, rfl⟩ := hj
    obtain ⟨h1, h2, ⟨dt, h3⟩, h4⟩ := hv.levels l hl
    have h5 : ∀ st ∈ ["UpToDate", "OutOfDate", "Revoked"], (TcbStatus.ofName st).isSome = true := by decide +kernel
    obtain ⟨st, hst⟩ := Option.isSome_iff_exists.mp (h5 _ h4)
    refine ⟨⟨l.1.toNat, dt, st, none⟩, (qeLevel_doc _ _ _).mpr ⟨?_, ?_, h3, hst, rfl⟩⟩ <;> simp only <;> omega)
  obtain ⟨leaf, i, inter, der, e1, e2, e3, e4, e5⟩ := hs
  have hr := hv.isvprodid
  have hr' := hv.evaluation
  have hp : EnclaveIdentity.ofJson c.ext.parseDate doc.json = some
      { id := doc.id, version := 2, issueDate := d, nextUpdate := e, tcbEvaluationDataNumber := doc.evaluation.toNat,
        miscselect := m1, miscselectMask := m2, attributes := m3, attributesMask := m4, mrsigner := m5,
        isvprodid := doc.isvprodid.toNat, tcbLevels := ls } := by
    rw [identity_doc]
    refine ⟨rfl, ?_, by simp, hd, he, ?_, ?_, (hexField_doc _ a1 _).mpr hm1, (hexField_doc _ a2 _).mpr hm2,
      (hexField_doc _ a3 _).mpr hm3, (hexField_doc _ a4 _).mpr hm4, (hexField_doc _ a5 _).mpr hm5, ?_, ?_, hls⟩
    · rw [hv.version]; rfl
    all_goals simp only; omega
  have h0 : (0 : Int) ≤ e := by omega
  have hq : ∃ q, EnclaveIdentity.toQuotingEnclave
      { id := doc.id, version := 2, issueDate := d, nextUpdate := e, tcbEvaluationDataNumber := doc.evaluation.toNat,
        miscselect := m1, miscselectMask := m2, attributes := m3, attributesMask := m4, mrsigner := m5,
        isvprodid := doc.isvprodid.toNat, tcbLevels := ls } = some q := by
    simp [EnclaveIdentity.toQuotingEnclave, millisToU64, hd0, h0]
  obtain ⟨q, hq⟩ := hq
  refine ⟨_, Teerex.registerQuotingEnclave_ok.mpr ⟨a, q, rfl, signedIdentity_iff.mpr ⟨hnow, leaf, i, inter, der, _, e1, e2, e3,
    e4, e5, ?_, hv.id, rfl, hdn, hen, toQuotingEnclave_iff.mp hq⟩, rfl⟩⟩
  rw [Ext.parseIdentity, hj]; exact hp

/-- An identity document with two levels. -/
def twoLevels : IdentityDoc where
  id := "QE"
  version := 2
  issueDate := "3"
  nextUpdate := "6000"
  evaluation := 16
  miscselect := Der.ascii "00000000"
  miscselectMask := Der.ascii "FFFFFFFF"
  attributes := Der.ascii "11000000000000000000000000000000"
  attributesMask := Der.ascii "FBFFFFFFFFFFFFFF0000000000000000"
  mrsigner := Der.ascii "8C4F5775D796503E96137F77C68A829A0056AC8DED70140B081B094490C57BFF"
  isvprodid := 1
  levels := [(8, "0", "UpToDate"), (6, "0", "OutOfDate")]

theorem twoLevels_valid : twoLevels.Valid readDate 5000 := by
  refine ⟨rfl, rfl, ⟨3, by decide +kernel, by decide, by decide⟩, ⟨6000, by decide +kernel, by decide⟩, by decide, ?_,
    ⟨⟨[0, 0, 0, 0], rfl⟩, by decide +kernel⟩, ⟨⟨[255, 255, 255, 255], rfl⟩, by decide +kernel⟩,
    ⟨⟨0x11 :: List.replicate 15 0, rfl⟩, by decide +kernel⟩,
    ⟨⟨0xfb :: List.replicate 7 255 ++ List.replicate 8 0, rfl⟩, by decide +kernel⟩,
    ⟨⟨[0x8C, 0x4F, 0x57, 0x75, 0xD7, 0x96, 0x50, 0x3E, 0x96, 0x13, 0x7F, 0x77, 0xC6, 0x8A, 0x82, 0x9A, 0x00, 0x56, 0xAC,
      0x8D, 0xED, 0x70, 0x14, 0x0B, 0x08, 0x1B, 0x09, 0x44, 0x90, 0xC5, 0x7B, 0xFF], rfl⟩, by decide +kernel⟩,
    by decide, ?_⟩
  · unfold IdentityDoc.Ascii; decide +kernel
  · intro l hl
    simp only [twoLevels, List.mem_cons, List.not_mem_nil, or_false] at hl
    rcases hl with rfl | rfl
    · exact ⟨by decide, by decide, ⟨0, by decide +kernel⟩, by decide +kernel⟩
    · exact ⟨by decide, by decide, ⟨0, by decide +kernel⟩, by decide +kernel⟩

example : twoLevels.Valid readDate 5000 ∧
    (exec { okCfg with ext := { okExt with json := fun _ => some twoLevels.json } } Demo.start
      (.ext (.signed alice) (.registerQuotingEnclave [1] (bytes 64 1) pem))).isOk = true := ⟨twoLevels_valid, by decide +kernel⟩

end Verif
