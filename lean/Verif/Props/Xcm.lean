import Verif.Proofs.InvRest
import Verif.Proofs.BridgeInv
import Verif.Spec.Xcm
import Verif.Spec.Demo

/-!
# Properties of the asset registry and XCM: C58 - C64, C83
-/

namespace Verif

open Demo XcmTransactor XcmPrimitives AssetRegistry

/-! ### C58 Asset id and location maps are mutually inverse -/

def locA : Location := ⟨1, [.parachain 1000, .palletInstance 50, .generalIndex 7]⟩
def locB : Location := ⟨1, [.parachain 2000]⟩
/-- Root registers an asset. -/
def registerOp (id : AssetId) (l : Location) : Op := .ext .root (.registerReserveAsset id l)
def unregisterOp (id : AssetId) : Op := .ext .root (.unregisterReserveAsset id)

/-- The ways in which an operation affects the registry. -/
theorem registry_effect {c : Cfg} {s s' : Chain} {op : Op} (h : exec c s op = .ok s') :
    (s'.ar = s.ar ∧ Part.assetRegistry ∉ op.parts) ∨
    (∃ o id loc, op = .ext o (.registerReserveAsset id loc) ∧ s.ar.idLoc id = none ∧
      s'.ar.idLoc = upd s.ar.idLoc id (some loc) ∧ s'.ar.locId = upd s.ar.locId loc (some id)) ∨
    (∃ o id loc, op = .ext o (.unregisterReserveAsset id) ∧ s.ar.idLoc id = some loc ∧
      s'.ar.idLoc = upd s.ar.idLoc id none ∧ s'.ar.locId = upd s.ar.locId loc none) := by
  by_cases hp : Part.assetRegistry ∈ op.parts
  · right
    cases op with
    | ext o k =>
      cases k with
      | registerReserveAsset id loc =>
        obtain ⟨_, _, h1, _, rfl⟩ := registerReserveAsset_ok.mp h
        exact .inl ⟨o, id, loc, rfl, h1, rfl, rfl⟩
      | unregisterReserveAsset id =>
        obtain ⟨loc, _, h1, rfl⟩ := unregisterReserveAsset_ok.mp h
        exact .inr ⟨o, id, loc, rfl, h1, rfl, rfl⟩
      | claims k => cases k <;> simp [Op.parts, Call.parts] at hp
      | _ => simp [Op.parts, Call.parts] at hp
    | _ => simp [Op.parts] at hp
  · exact .inl ⟨exec_frame h .assetRegistry hp, hp⟩

/-- The full claim. It is false for the code (see `C58_refuted`). -/
def C58_Full : Prop := ∀ (c : Cfg) (s0 : Chain) (ops : List Op), RegistryEmpty s0 → RegistryInverse (run c s0 ops)

/-- Two assets are registered at one location. -/
theorem C58_refuted : ¬ C58_Full := by
  intro h
  have := (h cfg start [.setAsset 1 5, .setAsset 2 5, registerOp 1 locA, registerOp 2 locA]
    ⟨fun _ => rfl, fun _ => rfl⟩ 1 locA).mp (by decide +kernel)
  revert this
  decide +kernel

/-- C58, partial: a location never maps to an asset that does not map back; so different locations map to different
assets. Missing: several assets may claim one location, which then maps to the last of them or to none. -/
theorem C58_back_partial (c : Cfg) (s0 : Chain) (ops : List Op) (h0 : RegistryEmpty s0) (id : AssetId) (loc : Location)
    (h : (run c s0 ops).ar.locId loc = some id) : (run c s0 ops).ar.idLoc id = some loc := by
  revert id loc
  refine run_invariant (c := c) (P := fun s => ∀ id loc, s.ar.locId loc = some id → s.ar.idLoc id = some loc) ?_ ?_ ops
  · intro s s' op ih hx id loc h
    rcases registry_effect hx with ⟨e, _⟩ | ⟨o, id', loc', _, h1, e1, e2⟩ | ⟨o, id', loc', _, h1, e1, e2⟩
    · rw [e] at h ⊢; exact ih id loc h
    · rw [e2] at h
      rw [e1]
      by_cases hl : loc = loc'
      · subst hl
        rw [upd_same] at h
        obtain rfl := Option.some.inj h
        rw [upd_same]
      · rw [upd_ne _ _ hl] at h
        have := ih id loc h
        rw [upd_ne _ _ (fun e => by rw [e, h1] at this; simp at this)]
        exact this
    · rw [e2] at h
      rw [e1]
      by_cases hl : loc = loc'
      · subst hl; rw [upd_same] at h; simp at h
      · rw [upd_ne _ _ hl] at h
        have := ih id loc h
        rw [upd_ne _ _ (fun e => by rw [e, h1] at this; exact hl (Option.some.inj this).symm)]
        exact this
  · intro id loc h
    rw [h0.2 loc] at h; simp at h

example : (run cfg start [.setAsset 1 5, registerOp 1 locA]).ar.locId locA = some 1 ∧
    (run cfg start [.setAsset 1 5, registerOp 1 locA]).ar.idLoc 1 = some locA := by decide +kernel

/-- C58, partial: the maps are inverse if no location is registered twice. -/
theorem C58_inverse_partial (c : Cfg) (s0 : Chain) (ops : List Op) (h0 : RegistryEmpty s0)
    (hno : ∀ p ∈ accepted c s0 ops, NoSharedLocation p) : RegistryInverse (run c s0 ops) := by
  have hback := C58_back_partial c s0 ops h0
  suffices h : ∀ id loc, (run c s0 ops).ar.idLoc id = some loc → (run c s0 ops).ar.locId loc = some id from
    fun id loc => ⟨h id loc, hback id loc⟩
  revert hno
  have key : (∀ p ∈ accepted c s0 ops, NoSharedLocation p) →
      ∀ id loc, (run c s0 ops).ar.idLoc id = some loc → (run c s0 ops).ar.locId loc = some id := by
    refine history_induction (c := c) (s0 := s0) (P := fun s acc => (∀ p ∈ acc, NoSharedLocation p) →
      ∀ id loc, s.ar.idLoc id = some loc → s.ar.locId loc = some id) ?_ ?_ ops
    · intro _ id loc h
      rw [h0.1 id] at h; simp at h
    · intro s s' op acc ih hx hno id loc h
      have ih := ih (fun p hp => hno p (List.mem_append_left _ hp))
      have hop := hno (s, op) (by simp)
      rcases registry_effect hx with ⟨e, _⟩ | ⟨o, id', loc', rfl, h1, e1, e2⟩ | ⟨o, id', loc', _, h1, e1, e2⟩
      · rw [e] at h ⊢; exact ih id loc h
      · have hop : ∀ id, s.ar.idLoc id ≠ some loc' := hop
        rw [e1] at h
        rw [e2]
        by_cases hi : id = id'
        · subst hi
          rw [upd_same] at h
          obtain rfl := Option.some.inj h
          rw [upd_same]
        · rw [upd_ne _ _ hi] at h
          rw [upd_ne _ _ (fun e => hop id (by rw [h, e]))]
          exact ih id loc h
      · rw [e1] at h
        rw [e2]
        by_cases hi : id = id'
        · subst hi; rw [upd_same] at h; simp at h
        · rw [upd_ne _ _ hi] at h
          have h2 := ih id loc h
          rw [upd_ne _ _ (fun e => by
            have h3 := ih id' loc' h1
            rw [← e, h2] at h3
            exact hi (Option.some.inj h3))]
          exact h2
  exact key

example : RegistryEmpty start ∧ (run cfg start [.setAsset 1 5, .setAsset 2 5, registerOp 1 locA, registerOp 2 locB,
    unregisterOp 1]).ar.locId locB = some 2 := ⟨⟨fun _ => rfl, fun _ => rfl⟩, by decide +kernel⟩

example : ∀ p ∈ accepted cfg start [.setAsset 1 5, registerOp 1 locA], NoSharedLocation p := by
  have h1 : exec cfg start (.setAsset 1 5) = .ok (step cfg start (.setAsset 1 5)) := rfl
  have h2 : exec cfg (step cfg start (.setAsset 1 5)) (registerOp 1 locA) =
    .ok (step cfg (step cfg start (.setAsset 1 5)) (registerOp 1 locA)) := exec_ok_of_isOk (by decide +kernel)
  rw [accepted_cons_ok h1, accepted_cons_ok h2]
  intro p hp
  simp only [accepted, List.mem_cons, List.not_mem_nil, or_false] at hp
  rcases hp with rfl | rfl
  · trivial
  · intro id; simp [step, exec, start, genesis]

/-! ### C59 Only valid locations of existing assets get registered -/

theorem validAssetLocation_iff (l : Location) : validAssetLocation l = true ↔ IdentifiesAsset l := by
  obtain ⟨ps, js⟩ := l
  unfold validAssetLocation IdentifiesAsset Location.splitLastInterior Location.last
  rcases List.eq_nil_or_concat js with rfl | ⟨pre, j, rfl⟩
  · simp
  · simp only [List.concat_eq_append, List.getLast?_append, List.getLast?_singleton, Option.some_or, List.dropLast_concat,
      List.append_eq_nil_iff, List.cons_ne_nil, and_false, false_or]
    have e1 : ∀ p' j', pre ++ [j] = p' ++ [j'] ↔ pre = p' ∧ j = j' := by
      intro p' j'
      constructor
      · intro h
        have := List.append_inj' h rfl
        simpa using this
      · rintro ⟨rfl, rfl⟩; rfl
    have e2 : ∀ p' a b, pre ++ [j] = p' ++ [a, b] ↔ pre = p' ++ [a] ∧ j = b := by
      intro p' a b
      rw [show p' ++ [a, b] = (p' ++ [a]) ++ [b] by simp, e1]
    simp only [e1, e2]
    cases j with
    | generalIndex i =>
      rcases List.eq_nil_or_concat pre with rfl | ⟨pre', q, rfl⟩
      · simp
      · simp only [List.concat_eq_append, List.getLast?_append, List.getLast?_singleton, Option.some_or, Bool.false_or]
        cases q <;> simp
    | parachain i => exact iff_of_true (by simp) (.inl ⟨pre, _, ⟨rfl, rfl⟩, .inr (.inr (.inr ⟨i, rfl⟩))⟩)
    | palletInstance i => exact iff_of_true (by simp) (.inl ⟨pre, _, ⟨rfl, rfl⟩, .inr (.inr (.inl ⟨i, rfl⟩))⟩)
    | accountId32 n a => exact iff_of_true (by simp) (.inl ⟨pre, _, ⟨rfl, rfl⟩, .inl ⟨n, a, rfl⟩⟩)
    | accountKey20 n a => exact iff_of_true (by simp) (.inl ⟨pre, _, ⟨rfl, rfl⟩, .inr (.inl ⟨n, a, rfl⟩)⟩)
    | _ => simp

/-- C59: exactly when a registration succeeds. -/
theorem C59_register_iff (c : Cfg) (s : Chain) (o : Origin) (id : AssetId) (loc : Location) :
    (∃ s', exec c s (.ext o (.registerReserveAsset id loc)) = .ok s') ↔
      c.assetOrigin o = true ∧ s.assets id ≠ none ∧ s.ar.idLoc id = none ∧ IdentifiesAsset loc := by
  rw [← validAssetLocation_iff]
  constructor
  · rintro ⟨s', h⟩
    obtain ⟨h1, h2, h3, h4, _⟩ := registerReserveAsset_ok.mp h
    exact ⟨h1, fun hn => by simp [hn] at h2, h3, h4⟩
  · rintro ⟨h1, h2, h3, h4⟩
    exact ⟨_, registerReserveAsset_ok.mpr ⟨h1, by cases h : s.assets id <;> simp_all, h3, h4, rfl⟩⟩

example : (exec cfg (step cfg start (.setAsset 1 5)) (registerOp 1 locA)).isOk = true ∧
    (exec cfg start (registerOp 1 locA)).isOk = false ∧
    (exec cfg (step cfg start (.setAsset 1 5)) (.ext (.signed alice) (.registerReserveAsset 1 locA))).isOk = false := by
  decide +kernel

/-- C59: unregistering succeeds exactly for registered assets, and both ways make the lookups answer accordingly. -/
theorem C59_unregister_iff (c : Cfg) (s : Chain) (o : Origin) (id : AssetId) :
    (∃ s', exec c s (.ext o (.unregisterReserveAsset id)) = .ok s') ↔ c.assetOrigin o = true ∧ s.ar.idLoc id ≠ none := by
  constructor
  · rintro ⟨s', h⟩
    obtain ⟨loc, h1, h2, _⟩ := unregisterReserveAsset_ok.mp h
    exact ⟨h1, by rw [h2]; simp⟩
  · rintro ⟨h1, h2⟩
    cases h : s.ar.idLoc id with
    | none => exact absurd h h2
    | some loc => exact ⟨_, unregisterReserveAsset_ok.mpr ⟨loc, h1, h, rfl⟩⟩

example : (exec cfg (run cfg start [.setAsset 1 5, registerOp 1 locA]) (unregisterOp 1)).isOk = true ∧
    (exec cfg (step cfg start (.setAsset 1 5)) (unregisterOp 1)).isOk = false := by decide +kernel

/-- C59: what the lookups answer after a registration and after its removal. -/
theorem C59_lookup (c : Cfg) (s s' : Chain) (o : Origin) (id : AssetId) (loc : Location)
    (h : exec c s (.ext o (.registerReserveAsset id loc)) = .ok s') :
    getAssetId s' loc = some id ∧ getAssetLocation s' id = some loc ∧
    (∀ l, l ≠ loc → getAssetId s' l = getAssetId s l) ∧ (∀ i, i ≠ id → getAssetLocation s' i = getAssetLocation s i) ∧
    ∀ o' s'', exec c s' (.ext o' (.unregisterReserveAsset id)) = .ok s'' →
      getAssetId s'' loc = none ∧ getAssetLocation s'' id = none := by
  obtain ⟨_, _, _, _, rfl⟩ := registerReserveAsset_ok.mp h
  refine ⟨by simp [getAssetId], by simp [getAssetLocation], fun l hl => by simp [getAssetId, hl],
    fun i hi => by simp [getAssetLocation, hi], ?_⟩
  intro o' s'' h
  obtain ⟨loc', _, h2, rfl⟩ := unregisterReserveAsset_ok.mp h
  simp only [upd_same, Option.some.injEq] at h2
  subst h2
  simp [getAssetId, getAssetLocation]

example : (exec cfg (step cfg start (.setAsset 1 5)) (registerOp 1 locA)).isOk = true ∧
    (exec cfg (step cfg start (.setAsset 1 5)) (registerOp 1 ⟨1, [.parachain 1000, .generalIndex 7]⟩)).isOk = false ∧
    (exec cfg (run cfg start [.setAsset 1 5, registerOp 1 locA]) (unregisterOp 1)).isOk = true := by decide +kernel

/-! ### C60 Slot swap only for the configured pair -/

/-- C60: exactly when a swap message is sent: for an authorised origin, the two configured ids (in either order,
distinct), and a router that accepts the message. -/
theorem C60_sends_iff (c : Cfg) (s : Chain) (o : Origin) (self other : Nat) (w : Nat × Nat) (fee : Nat) :
    (∃ s', exec c s (.ext o (.sendSwapUmp self other w fee)) = .ok s') ↔
      c.swapOrigin o = true ∧ c.shellParaId ≠ c.ksmParaId ∧
      ((self = c.shellParaId ∧ other = c.ksmParaId) ∨ (self = c.ksmParaId ∧ other = c.shellParaId)) ∧
      ∃ hash, c.sendXcm s.xt.sent ⟨1, []⟩ (constructTransactXcm c.ownParaId (swapCall self other) w fee) = .ok hash := by
  constructor
  · rintro ⟨s', h⟩
    obtain ⟨hash, h1, h2, h3, h4, h5, _⟩ := sendSwapUmp_ok.mp h
    refine ⟨h1, ?_, ?_, hash, h5⟩
    · rcases h3 with rfl | rfl <;> rcases h4 with rfl | rfl <;> first | exact h2 | exact (Ne.symm h2) | exact absurd rfl h2
    · rcases h3 with rfl | rfl <;> rcases h4 with rfl | rfl
      · exact absurd rfl h2
      · exact .inl ⟨rfl, rfl⟩
      · exact .inr ⟨rfl, rfl⟩
      · exact absurd rfl h2
  · rintro ⟨h1, h2, h3, hash, h4⟩
    refine ⟨_, sendSwapUmp_ok.mpr ⟨hash, h1, ?_, ?_, ?_, h4, rfl⟩⟩
    · rcases h3 with ⟨rfl, rfl⟩ | ⟨rfl, rfl⟩
      · exact h2
      · exact h2.symm
    · rcases h3 with ⟨rfl, rfl⟩ | ⟨rfl, rfl⟩ <;> simp
    · rcases h3 with ⟨rfl, rfl⟩ | ⟨rfl, rfl⟩ <;> simp

/-- C60: a successful call sends exactly one message, to the relay chain, and nothing else on the chain changes. -/
theorem C60_one_message (c : Cfg) (s s' : Chain) (o : Origin) (self other : Nat) (w : Nat × Nat) (fee : Nat)
    (h : exec c s (.ext o (.sendSwapUmp self other w fee)) = .ok s') :
    ∃ hash, c.sendXcm s.xt.sent ⟨1, []⟩ (constructTransactXcm c.ownParaId (swapCall self other) w fee) = .ok hash ∧
    s' = { s with xt := {
      sent := (⟨1, []⟩, constructTransactXcm c.ownParaId (swapCall self other) w fee) :: s.xt.sent
      events := .swapTransactSent self other :: .sentXcm hash :: s.xt.events } } := by
  obtain ⟨hash, _, _, _, _, h5, h6⟩ := sendSwapUmp_ok.mp h
  exact ⟨hash, h5, h6⟩

example : (exec cfg start (.ext .root (.sendSwapUmp 2015 2223 (5, 6) 1000))).isOk = true := by decide +kernel

/-- C60: over a whole history, every message sent comes from one accepted call for the configured pair, by an
authorised origin, in order; no other call sends anything. -/
theorem C60_history (c : Cfg) (s0 : Chain) (ops : List Op) (h0 : s0.xt.sent = []) :
    (run c s0 ops).xt.sent.reverse = (accepted c s0 ops).filterMap fun p =>
      match p.2 with
      | .ext _ (.sendSwapUmp self other w fee) =>
        some (⟨1, []⟩, constructTransactXcm c.ownParaId (swapCall self other) w fee)
      | _ => none := by
  refine history_induction (c := c) (s0 := s0) (P := fun s acc => s.xt.sent.reverse = acc.filterMap fun p =>
      match p.2 with
      | .ext _ (.sendSwapUmp self other w fee) =>
        some (⟨1, []⟩, constructTransactXcm c.ownParaId (swapCall self other) w fee)
      | _ => none) ?_ ?_ ops
  · simp [h0]
  · intro s s' op acc ih hx
    rw [List.filterMap_append, ← ih]
    by_cases hp : Part.xcm ∈ op.parts
    · cases op with
      | ext o k =>
        cases k with
        | sendSwapUmp self other w fee =>
          obtain ⟨hash, _, rfl⟩ := C60_one_message c s s' o self other w fee hx
          simp
        | claims k => cases k <;> simp [Op.parts, Call.parts] at hp
        | _ => simp [Op.parts, Call.parts] at hp
      | _ => simp [Op.parts] at hp
    · have e : s'.xt = s.xt := exec_frame hx .xcm hp
      rw [e]
      cases op with
      | ext o k =>
        cases k with
        | sendSwapUmp self other w fee => simp [Op.parts, Call.parts] at hp
        | _ => simp
      | _ => simp

example : (exec cfg start (.ext .root (.sendSwapUmp 2015 2223 (5, 6) 1000))).isOk = true ∧
    (exec cfg start (.ext .root (.sendSwapUmp 2015 2015 (5, 6) 1000))).isOk = false ∧
    (exec cfg start (.ext (.signed alice) (.sendSwapUmp 2015 2223 (5, 6) 1000))).isOk = false ∧
    (exec { cfg with sendXcm := fun _ _ _ => .error .transport } start
      (.ext .root (.sendSwapUmp 2015 2223 (5, 6) 1000))).isOk = false := by decide +kernel

/-! ### C61 Relay call encoding is the registrar swap call -/

/-- C61: pallet index, call index and the two ids. -/
theorem C61_bytes (self other : Nat) :
    (swapCall self other).encode = [70, 3] ++ le32 self ++ le32 other := by
  have h : ∀ n, toLE 4 n = le32 n := by
    intro n
    simp only [toLE, le32]
    have e : ∀ m : Nat, UInt8.ofNat (m % 256) = UInt8.ofNat m := by
      intro m; apply UInt8.toNat_inj.mp; simp
    simp only [e, Nat.div_div_eq_div_mul, Nat.reduceMul, Nat.reducePow]
  simp [swapCall, RelayRuntimeCall.encode, RegistrarCall.encode, h]

example : (swapCall 2015 2223).encode = [70, 3, 223, 7, 0, 0, 175, 8, 0, 0] := by decide +kernel

/-- C61: decoding gives the same ids back and consumes exactly the call. -/
theorem C61_roundtrip (self other : Nat) (h1 : self < 2 ^ 32) (h2 : other < 2 ^ 32) (rest : Bytes) :
    RelayRuntimeCall.decode ((swapCall self other).encode ++ rest) = some (swapCall self other, rest) := by
  have h : ∀ n (b : Bytes), n < 2 ^ 32 → rdLE 4 (toLE 4 n ++ b) = some (n, b) := by
    intro n b hn
    unfold rdLE
    rw [if_pos (by simp), List.take_left' (by simp), List.drop_left' (by simp), leNat_toLE _ _ (by simpa using hn)]
  have e : (swapCall self other).encode ++ rest = 70 :: 3 :: (toLE 4 self ++ (toLE 4 other ++ rest)) := by
    simp [swapCall, RelayRuntimeCall.encode, RegistrarCall.encode]
  rw [e]
  simp [RelayRuntimeCall.decode, RegistrarCall.decode, h _ _ h1, h _ _ h2, swapCall]

example : RelayRuntimeCall.decode ((swapCall 2015 2223).encode ++ [1, 2]) = some (swapCall 2015 2223, [1, 2]) :=
  C61_roundtrip 2015 2223 (by decide) (by decide) [1, 2]

/-- C61: different ids have different bytes. -/
theorem C61_injective (a b a' b' : Nat) (h1 : a < 2 ^ 32) (h2 : b < 2 ^ 32) (h1' : a' < 2 ^ 32) (h2' : b' < 2 ^ 32)
    (h : (swapCall a b).encode = (swapCall a' b').encode) : a = a' ∧ b = b' := by
  have e1 := C61_roundtrip a b h1 h2 []
  rw [h, C61_roundtrip a' b' h1' h2' []] at e1
  simp only [swapCall, Option.some.injEq, Prod.mk.injEq, RelayRuntimeCall.registrar.injEq, RegistrarCall.swap.injEq,
    and_true] at e1
  exact ⟨e1.1.symm, e1.2.symm⟩

example : (swapCall 2015 2223).encode ≠ (swapCall 2223 2015).encode := by decide

example : (swapCall 2015 2223).encode = [70, 3, 0xdf, 0x07, 0, 0, 0xaf, 0x08, 0, 0] := by decide

/-! ### C62 The swap program cannot strand its fee -/

/-- C62: the program. -/
theorem C62_program (own self other : Nat) (w : Nat × Nat) (fee : Nat) :
    constructTransactXcm own (swapCall self other) w fee = swapProgram own self other w fee := by
  exact construct_swapProgram ..

/-- C62: on any chain, a complete execution leaves nothing in holding; the origin pays the fee, and the beneficiary
gets what is not used for execution, plus the refund. -/
theorem C62_complete (x : Executor) (origin : AccountId) (own self other : Nat) (w : Nat × Nat) (fee : Nat)
    (v v' : Vm) (h0 : v.holding = 0) (hd : v.due = 0)
    (h : x.run origin v (constructTransactXcm own (swapCall self other) w fee) = (v', true)) :
    ∃ a r, x.account ⟨1, [.parachain own]⟩ = some a ∧ x.refund (swapCall self other).encode = some r ∧
      fee ≤ v.free origin ∧ x.price ≤ fee ∧ v'.holding = 0 ∧ v'.calls = v.calls ++ [(swapCall self other).encode] ∧
      v'.free = upd (upd v.free origin (v.free origin - fee)) a
        ((upd v.free origin (v.free origin - fee)) a + (fee - x.price + r)) := by
  simp only [constructTransactXcm, Executor.run, Executor.instr] at h
  split at h
  · rename_i v1 h1
    split at h1
    · rename_i c1
      simp only [Option.some.injEq] at h1
      subst h1
      split at h
      · rename_i v2 h2
        split at h2
        · rename_i c2
          simp only [Option.some.injEq] at h2
          subst h2
          split at h
          · rename_i v3 h3
            split at h3
            · rename_i r hr
              simp only [Option.some.injEq] at h3
              subst h3
              split at h
              · rename_i v4 h4
                split at h4
                · rename_i a ha
                  simp only [Option.some.injEq] at h4
                  subst h4
                  simp only [Prod.mk.injEq, and_true] at h
                  subst h
                  refine ⟨a, r, ha, hr, c1.2, c2.2.2, rfl, rfl, ?_⟩
                  simp only [h0, hd, Nat.zero_add]
                · simp at h4
              · simp at h
            · simp at h3
          · simp at h
        · simp at h2
      · simp at h
    · simp at h1
  · simp at h

/-- C62: with a sufficient fee, known locations and a call that fits its weight, the execution is complete. -/
theorem C62_runs (x : Executor) (origin a : AccountId) (own self other : Nat) (w : Nat × Nat) (fee r : Nat)
    (v : Vm) (ht : x.isToken ⟨1, []⟩ = true) (hf : fee ≤ v.free origin) (hp : x.price ≤ fee)
    (hr : x.refund (swapCall self other).encode = some r) (ha : x.account ⟨1, [.parachain own]⟩ = some a) :
    (x.run origin v (constructTransactXcm own (swapCall self other) w fee)).2 = true := by
  simp only [constructTransactXcm, Executor.run, Executor.instr, ht, hf, and_self, if_true, hr, ha]
  rw [if_pos ⟨trivial, by omega, hp⟩]

/-- A chain that knows the locations used in the program. -/
def demoExecutor : Executor where
  isToken l := l = ⟨1, []⟩
  account l := if l = ⟨1, [.parachain 2015]⟩ then some bob else none
  price := 10
  refund _ := some 2

example : (demoExecutor.run bob ⟨fun _ => 1000, 0, 0, []⟩ (constructTransactXcm 2015 (swapCall 2015 2223) (5, 6) 100)).2 =
    true ∧ (demoExecutor.run bob ⟨fun _ => 1000, 0, 0, []⟩
      (constructTransactXcm 2015 (swapCall 2015 2223) (5, 6) 100)).1.free bob = 992 := by decide +kernel

/-! ### C83 The swap message performs the swap on the relay chain -/

/-- The full claim: the relay chain completes the program of a solvent parachain. It is false for the code
(see `C83_refuted`). -/
def C83_Full : Prop :=
  ∀ (x : Executor) (sovereign : Nat → AccountId), IsRelay x sovereign → ∀ (own self other : Nat) (w : Nat × Nat)
    (fee r : Nat) (v : Vm), fee ≤ v.free (sovereign own) → x.price ≤ fee →
    x.refund (swapCall self other).encode = some r →
    ((x.run (sovereign own) v (constructTransactXcm own (swapCall self other) w fee)).1).calls =
      v.calls ++ [(swapCall self other).encode]

/-- A relay chain. -/
def demoRelay : Executor where
  isToken l := l = { parents := 0, interior := [] }
  account l := match l with
    | ⟨0, [.parachain id]⟩ => some (Arr.fill 32 (UInt8.ofNat id))
    | _ => none
  price := 10
  refund _ := some 2

theorem demoRelay_is : IsRelay demoRelay fun id => Arr.fill 32 (UInt8.ofNat id) where
  token l := by simp [demoRelay]
  para id := rfl
  above l h := by
    obtain ⟨p, i⟩ := l
    unfold demoRelay
    simp only at h ⊢
    split
    · rename_i he; simp at he; exact absurd he.1 h
    · rfl

/-- C83, partial: whatever the fee, on the relay chain the program stops at its first instruction: the fee is named by
the location of the relay chain as seen from the parachain. So nothing is dispatched, but nothing is taken either. -/
theorem C83_stops_partial (x : Executor) (sovereign : Nat → AccountId) (hx : IsRelay x sovereign) (origin : AccountId)
    (own self other : Nat) (w : Nat × Nat) (fee : Nat) (v : Vm) :
    x.run origin v (constructTransactXcm own (swapCall self other) w fee) = (v, false) := by
  have h : x.isToken ⟨1, []⟩ = false := by
    cases h : x.isToken ⟨1, []⟩ with
    | false => rfl
    | true => have := (hx.token _).mp h; simp at this
  rw [C62_program, swapProgram]
  simp [Executor.run, Executor.instr, h]

/-- On this relay chain the program of the real para ids stops at its first instruction and nothing is withdrawn. -/
example : (demoRelay.run bob ⟨fun _ => 1000, 0, 0, []⟩ (constructTransactXcm 2015 (swapCall 2015 2223) (5, 6) 100)).2 = false ∧
    (demoRelay.run bob ⟨fun _ => 1000, 0, 0, []⟩ (constructTransactXcm 2015 (swapCall 2015 2223) (5, 6) 100)).1.free bob = 1000 := by
  decide +kernel

theorem C83_refuted : ¬ C83_Full := by
  intro h
  have := h demoRelay _ demoRelay_is 2015 2015 2223 (5, 6) 100 2 ⟨fun _ => 1000, 0, 0, []⟩ (by decide) (by decide) rfl
  rw [C83_stops_partial demoRelay _ demoRelay_is] at this
  simp at this

/-! ### C63 Dropped assets are trapped exactly when worth keeping -/

/-- C63: which assets are passed on to the trap. The location of a registered asset is judged by its minimum balance,
an unregistered one must be the native token. -/
theorem C63_trapped_iff (c : Cfg) (s : Chain) (w : Weigher) (h : Holding) (tw : Holding → Nat × Nat) (loc : Location)
    (n : Nat) (hed : c.ed ≤ c.balMax) (hm : ∀ id m, s.assets id = some m → m ≤ c.balMax) :
    (loc, n) ∈ (dropAssets c s w h tw).1.fungible ↔ (loc, n) ∈ h.fungible ∧
      ((∃ id, s.ar.locId loc = some id ∧ ∀ m, s.assets id = some m → m ≤ n) ∨
       (s.ar.locId loc = none ∧ loc = ⟨0, []⟩ ∧ c.ed ≤ n)) := by
  simp only [dropAssets, List.mem_filter, keep, getAssetId]
  refine and_congr_right fun _ => ?_
  cases hl : s.ar.locId loc with
  | none =>
    simp only [Bool.and_eq_true, decide_eq_true_eq, reduceCtorEq, false_and, exists_false, false_or, true_and,
      nativeLocation]
    refine and_congr (by constructor <;> intro h <;> first | exact of_decide_eq_true h | exact decide_eq_true h) ?_
    omega
  | some id =>
    simp only [decide_eq_true_eq, Option.some.injEq, reduceCtorEq, false_and, or_false, exists_eq_left']
    cases ha : s.assets id with
    | none => simp
    | some m =>
      have := hm id m ha
      simp only [Option.getD_some, Option.some.injEq, forall_eq']
      omega

/-- C63: the order and amounts are kept, and no non fungible asset is passed on. -/
theorem C63_unchanged (c : Cfg) (s : Chain) (w : Weigher) (h : Holding) (tw : Holding → Nat × Nat) :
    List.Sublist (dropAssets c s w h tw).1.fungible h.fungible ∧ (dropAssets c s w h tw).1.nonFungible = [] :=
  ⟨List.filter_sublist, rfl⟩

theorem weight_fold (s : Chain) (w : Weigher) (l : List (Location × Nat)) (acc : Nat × Nat)
    (h1 : acc.1 ≤ 2 ^ 64 - 1) (h2 : acc.2 ≤ 2 ^ 64 - 1) :
    let k := (l.filter fun p => (s.ar.locId p.1).isSome).length
    let m := (l.filter fun p => !(s.ar.locId p.1).isSome).length
    l.foldl (fun acc p => weightAdd acc (itemWeight s w p)) acc =
      (min (2 ^ 64 - 1) (acc.1 + k * w.fungible.1 + m * w.native.1),
       min (2 ^ 64 - 1) (acc.2 + k * w.fungible.2 + m * w.native.2)) := by
  induction l generalizing acc with
  | nil =>
    simp only [List.filter_nil, List.length_nil, Nat.zero_mul, Nat.add_zero, List.foldl_nil]
    rw [Nat.min_eq_right h1, Nat.min_eq_right h2]
  | cons p l ih =>
    rw [List.foldl_cons]
    have hb : ∀ a b : Nat, satAdd (2 ^ 64 - 1) a b ≤ 2 ^ 64 - 1 := fun a b => by unfold satAdd; omega
    have := ih (weightAdd acc (itemWeight s w p)) (hb _ _) (hb _ _)
    simp only at this ⊢
    rw [this]
    cases hl : s.ar.locId p.1 with
    | none =>
      simp only [hl, List.filter_cons, Option.isSome_none, Bool.not_false, Bool.false_eq_true, if_true, if_false,
        List.length_cons, Nat.succ_mul, weightAdd, itemWeight, getAssetId, satAdd]
      congr 1 <;> omega
    | some id =>
      simp only [hl, List.filter_cons, Option.isSome_some, Bool.not_true, Bool.false_eq_true, if_true, if_false,
        List.length_cons, Nat.succ_mul, weightAdd, itemWeight, getAssetId, satAdd]
      congr 1 <;> omega

/-- C63: every fungible asset is paid for, dropped or not, and the weight of the trap is added. Weights saturate. -/
theorem C63_weight (c : Cfg) (s : Chain) (w : Weigher) (h : Holding) (tw : Holding → Nat × Nat)
    (hd : w.default.1 < 2 ^ 64 ∧ w.default.2 < 2 ^ 64) :
    let registered := (h.fungible.filter fun p => (s.ar.locId p.1).isSome).length
    let others := (h.fungible.filter fun p => !(s.ar.locId p.1).isSome).length
    let trap := tw (dropAssets c s w h tw).1
    (dropAssets c s w h tw).2 =
      (min (2 ^ 64 - 1) (w.default.1 + registered * w.fungible.1 + others * w.native.1 + trap.1),
       min (2 ^ 64 - 1) (w.default.2 + registered * w.fungible.2 + others * w.native.2 + trap.2)) := by
  have hf := weight_fold s w h.fungible w.default (by omega) (by omega)
  simp only at hf ⊢
  simp only [dropAssets]
  rw [hf]
  simp only [weightAdd, satAdd]
  congr 1 <;> omega

/-- A registry with one asset of minimum balance 5. -/
def oneAsset : Chain := run cfg start [.setAsset 1 5, registerOp 1 locA]

def someHolding : Holding := ⟨[(locA, 5), (locB, 100), (⟨0, []⟩, 10), (⟨0, []⟩, 9)], [(locA, 1)]⟩

example : (dropAssets cfg oneAsset ⟨(3, 3), (2, 2), (1, 1)⟩ someHolding (fun _ => (100, 100))).1.fungible =
      [(locA, 5), (⟨0, []⟩, 10)] ∧
    (dropAssets cfg oneAsset ⟨(3, 3), (2, 2), (1, 1)⟩ someHolding (fun _ => (100, 100))).2 = (110, 110) ∧
    cfg.ed ≤ cfg.balMax := by decide +kernel

/-! ### C64 Asset matching follows the registry -/

/-- C64 -/
theorem C64_matches_iff (s : Chain) (toBalance : Nat → Option Nat) (a : Asset) (id : AssetId) (n : Nat) :
    matchesFungibles s toBalance a = .ok (id, n) ↔
      ∃ amount, a.fun_ = .fungible amount ∧ s.ar.locId a.id = some id ∧ toBalance amount = some n := by
  unfold matchesFungibles convert getAssetId
  cases h : a.fun_ with
  | nonFungible i => simp [bind_eq_ok]
  | fungible amount =>
    simp only [pure_bind, bind_eq_ok, okOr_eq_ok, Except.ok.injEq, Prod.mk.injEq, Fungibility.fungible.injEq]
    constructor
    · rintro ⟨_, h1, _, h2, rfl, rfl⟩; exact ⟨_, rfl, h1, h2⟩
    · rintro ⟨_, rfl, h1, h2⟩; exact ⟨_, h1, _, h2, rfl, rfl⟩

/-- C64: the conversion used for looking up is the one back, for every reachable registry. -/
theorem C64_convert_back (c : Cfg) (s0 : Chain) (ops : List Op) (h0 : RegistryEmpty s0) (loc : Location) (id : AssetId)
    (h : convert (run c s0 ops) loc = some id) : convertBack (run c s0 ops) id = some loc :=
  C58_back_partial c s0 ops h0 id loc h

example : convert (run cfg start [.setAsset 1 5, registerOp 1 locA]) locA = some 1 := by decide +kernel

example : matchesFungibles oneAsset (fun n => if n < 2 ^ 128 then some n else none) ⟨locA, .fungible 30⟩ = .ok (1, 30) ∧
    convert oneAsset locA = some 1 ∧ convertBack oneAsset 1 = some locA := by
  refine ⟨(C64_matches_iff ..).mpr ⟨30, rfl, by decide +kernel, by decide⟩, by decide +kernel, by decide +kernel⟩

end Verif
