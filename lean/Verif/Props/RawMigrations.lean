import Verif.Spec.RawMigrations
import Verif.Props.Scale
import Verif.Props.Primitives
import Verif.Props.Weights

/-!
# Storage upgrades on the raw storage
-/

namespace Verif

open Scale RawMigrations

theorem get_cons (r : Raw) (k v x : Bytes) : Raw.get ((k, v) :: r) x = if x = k then some v else r.get x := by
  unfold Raw.get
  grind

theorem get_kill (r : Raw) (k x : Bytes) : (r.kill k).get x = if x = k then none else r.get x := by
  unfold Raw.get Raw.kill
  induction r with
  | nil => simp
  | cons e r ih => grind

theorem get_put (r : Raw) (k v x : Bytes) : (r.put k v).get x = if x = k then some v else r.get x := by
  have := get_kill r k x
  unfold Raw.put
  unfold Raw.get at *
  grind

theorem get_clear (r : Raw) (p x : Bytes) : (r.clear p).1.get x = if p <+: x then none else r.get x := by
  unfold Raw.get Raw.clear
  simp only [← List.isPrefixOf_iff_prefix]
  induction r with
  | nil => simp
  | cons e r ih => grind

/-- Two names whose keys share the first 32 bytes have the same hash. -/
theorem prefix_twox {h : KeyHash} {p q a b r t : Bytes} (hk : itemPrefix h p a ++ r = itemPrefix h q b ++ t) :
    h.twox128 p = h.twox128 q ∧ h.twox128 a = h.twox128 b ∧ r = t := by
  simp only [itemPrefix, List.append_assoc] at hk
  obtain ⟨h1, h2⟩ := append_arr hk
  obtain ⟨h3, h4⟩ := append_arr h2
  exact ⟨h1, h3, h4⟩

theorem not_under {h : KeyHash} {p q a b : Bytes} {t : Bytes} (hn : h.twox128 a ≠ h.twox128 b) :
    ¬ itemPrefix h p a <+: itemPrefix h q b ++ t := fun ⟨_, hr⟩ => hn (prefix_twox hr).2.1

theorem not_key {h : KeyHash} {p q a b : Bytes} {t : Bytes} (hn : h.twox128 a ≠ h.twox128 b) :
    itemPrefix h q b ++ t ≠ itemPrefix h p a := fun hr =>
  hn (prefix_twox (r := []) (t := t) (by rw [List.append_nil]; exact hr.symm)).2.1

/-- What the first upgrade leaves under each key. -/
theorem get_v0ToV1 (h : KeyHash) (p : Bytes) (r : Raw) (h0 : version h p r = 0) (k : Bytes) :
    (v0ToV1 h p r).1.get k =
      if k = versionKey h p then some [1, 0]
      else if indexPrefix h p <+: k ∨ registryPrefix h p <+: k ∨ k = countKey h p then none
      else if k = debugKey h p then some [if (r.get (oldDebugKey h p)).bind List.head? = some 1 then 1 else 0]
      else if k = oldDebugKey h p then none else r.get k := by
  have hb : bool.enc (r.getOr (oldDebugKey h p) bool false) =
      [if (r.get (oldDebugKey h p)).bind List.head? = some 1 then 1 else 0] := by
    unfold Raw.getOr
    rcases r.get (oldDebugKey h p) with _ | b
    · rfl
    · rcases b with _ | ⟨x, b⟩
      · rfl
      · simp only [Option.bind_some, List.head?_cons, Scale.bool]
        split <;> simp_all
  unfold v0ToV1
  rw [if_neg (by omega)]
  simp only [get_put, get_clear, get_kill, hb]
  have : (le 2).enc 1 = [1, 0] := by decide
  rw [this]
  grind

/-- What the second upgrade leaves under each key. -/
theorem get_v1ToV2 (h : KeyHash) (p : Bytes) (r : Raw) (h0 : version h p r < 2) (k : Bytes) :
    (v1ToV2 h p r).1.get k =
      if k = versionKey h p then some [2, 0] else if tcbPrefix h p <+: k then none else r.get k := by
  unfold v1ToV2 Migrations.inCodeVersion
  rw [if_neg (by omega)]
  simp only [get_put, get_clear]
  have : (le 2).enc 2 = [2, 0] := by decide
  rw [this]

theorem version_of {h : KeyHash} {p : Bytes} {r : Raw} {b : Bytes} (hg : r.get (versionKey h p) = some b) :
    version h p r = (((le 2).dec b).map (·.1)).getD 0 := by
  simp [version, Raw.getOr, hg]

theorem version_v0ToV1 (h : KeyHash) (p : Bytes) (r : Raw) (h0 : version h p r = 0) :
    version h p (v0ToV1 h p r).1 = 1 := by
  rw [version_of (b := [1, 0]) (by rw [get_v0ToV1 h p r h0]; simp)]; decide

theorem version_v1ToV2 (h : KeyHash) (p : Bytes) (r : Raw) (h0 : version h p r < 2) :
    version h p (v1ToV2 h p r).1 = 2 := by
  rw [version_of (b := [2, 0]) (by rw [get_v1ToV2 h p r h0]; simp)]; decide

theorem demoUpgradeApart : UpgradeApart demoHash demoNames := by
  refine ⟨demoApart, by decide +kernel, fun a ha s => ?_⟩
  have hs : s.item ∈ allItems := by cases s <;> simp [Slot.item, allItems]
  have all : ∀ a ∈ upgradeItems, ∀ b ∈ allItems,
      demoHash.twox128 (asciiBytes a) ≠ demoHash.twox128 (asciiBytes b) := by decide +kernel
  exact all a ha _ hs

/-- A chain at version 0 with one enclave of the old registry, one TCB info of version 1 and one enclave of the new
registry. -/
def oldStorage : Migrations.St where
  version := 0
  v0Registry := fun n => if n = 1 then some ⟨Demo.alice, Arr.zero 32, 5, [104], .production⟩ else none
  v0Count := some 1
  v0Index := fun a => if a = Demo.alice then some 1 else none
  v0AllowDebug := some true
  tcbInfo := fun f => if f = Arr.zero 6 then some (.inl ⟨1, 2⟩) else none
  tx := Demo.start.tx

/-- A key of the pallet in the example. -/
def demoKey (item : String) (rest : Bytes) : Bytes :=
  itemPrefix demoHash (demoNames .teerex) (asciiBytes item) ++ rest

/-- Its raw storage, with an entry of another pallet and no version. -/
def oldRaw : Raw :=
  [(demoKey "EnclaveRegistry" (blakeConcat demoHash (le 8) 1),
      enclaveV0.enc ⟨Demo.alice, Arr.zero 32, 5, [104], .production⟩),
    (demoKey "EnclaveCount" [], (le 8).enc 1),
    (demoKey "EnclaveIndex" (blakeConcat demoHash (arr 32) Demo.alice), (le 8).enc 1),
    (demoKey "AllowSGXDebugMode" [], [1]),
    (demoKey "SgxTcbInfo" (blakeConcat demoHash (arr 6) (Arr.zero 6)), tcbInfoV1.enc ⟨1, 2⟩),
    (demoKey "AllowSkippingAttestation" [], [1]),
    (asciiBytes "elsewhere", [9])]

theorem demoKey_eq {a b : String} {x y : Bytes} :
    demoKey a x = demoKey b y ↔ demoHash.twox128 (asciiBytes a) = demoHash.twox128 (asciiBytes b) ∧ x = y := by
  constructor
  · exact fun h => (prefix_twox h).2
  · rintro ⟨h, rfl⟩; simp [demoKey, itemPrefix, h]

theorem demoKey_long (a : String) (x : Bytes) : demoKey a x ≠ asciiBytes "elsewhere" := by
  intro h
  have h2 := congrArg List.length h
  have h3 : (asciiBytes "elsewhere").length = 9 := by decide
  have h4 : (demoKey a x).length = 32 + x.length := by
    simp only [demoKey, itemPrefix, List.length_append, (demoHash.twox128 _).property]
  omega

theorem oldRaw_get (a : String) (x : Bytes) : oldRaw.get (demoKey a x) =
    if demoKey a x = demoKey "EnclaveRegistry" (blakeConcat demoHash (le 8) 1) then
      some (enclaveV0.enc ⟨Demo.alice, Arr.zero 32, 5, [104], .production⟩)
    else if demoKey a x = demoKey "EnclaveCount" [] then some ((le 8).enc 1)
    else if demoKey a x = demoKey "EnclaveIndex" (blakeConcat demoHash (arr 32) Demo.alice) then some ((le 8).enc 1)
    else if demoKey a x = demoKey "AllowSGXDebugMode" [] then some [1]
    else if demoKey a x = demoKey "SgxTcbInfo" (blakeConcat demoHash (arr 6) (Arr.zero 6)) then
      some (tcbInfoV1.enc ⟨1, 2⟩)
    else if demoKey a x = demoKey "AllowSkippingAttestation" [] then some [1]
    else none := by
  have nil : Raw.get [] (demoKey a x) = none := rfl
  simp only [oldRaw, get_cons, nil, if_neg (demoKey_long a x)]

theorem demo_twox : ∀ a ∈ upgradeItems ++ allItems, ∀ b ∈ upgradeItems ++ allItems,
    demoHash.twox128 (asciiBytes a) = demoHash.twox128 (asciiBytes b) → a = b := by decide +kernel

theorem demoKey_iff {a b : String} {x y : Bytes} (ha : a ∈ upgradeItems ++ allItems) (hb : b ∈ upgradeItems ++ allItems) :
    demoKey a x = demoKey b y ↔ a = b ∧ x = y := by
  rw [demoKey_eq]
  exact ⟨fun h => ⟨demo_twox a ha b hb h.1, h.2⟩, fun h => ⟨by rw [h.1], h.2⟩⟩

theorem oldRaw_read {a : String} (x : Bytes) (ha : a ∈ upgradeItems ++ allItems) : oldRaw.get (demoKey a x) =
    if a = "EnclaveRegistry" ∧ x = blakeConcat demoHash (le 8) 1 then
      some (enclaveV0.enc ⟨Demo.alice, Arr.zero 32, 5, [104], .production⟩)
    else if a = "EnclaveCount" ∧ x = [] then some ((le 8).enc 1)
    else if a = "EnclaveIndex" ∧ x = blakeConcat demoHash (arr 32) Demo.alice then some ((le 8).enc 1)
    else if a = "AllowSGXDebugMode" ∧ x = [] then some [1]
    else if a = "SgxTcbInfo" ∧ x = blakeConcat demoHash (arr 6) (Arr.zero 6) then some (tcbInfoV1.enc ⟨1, 2⟩)
    else if a = "AllowSkippingAttestation" ∧ x = [] then some [1]
    else none := by
  rw [oldRaw_get]
  simp only [demoKey_iff ha (by decide : "EnclaveRegistry" ∈ _), demoKey_iff ha (by decide : "EnclaveCount" ∈ _),
    demoKey_iff ha (by decide : "EnclaveIndex" ∈ _), demoKey_iff ha (by decide : "AllowSGXDebugMode" ∈ _),
    demoKey_iff ha (by decide : "SgxTcbInfo" ∈ _), demoKey_iff ha (by decide : "AllowSkippingAttestation" ∈ _)]

theorem oldRaw_represents : Represents demoWidths demoHash demoNames demoLoc oldRaw oldStorage := by
  have free {α : Type} {c : Codec α} (e : Scale.Exact c) {a b : α} (fa : c.fits a) (fb : c.fits b) :
      blakeConcat demoHash c a = blakeConcat demoHash c b ↔ a = b :=
    ⟨fun h' => (blakeConcat_free e demoHash (r := []) (t := []) fa fb (by rw [h'])).1, fun h' => by rw [h']⟩
  have nil (a : String) : itemPrefix demoHash (demoNames .teerex) (asciiBytes a) = demoKey a [] := by simp [demoKey]
  refine ⟨by decide +kernel, fun n hn => ?_, by decide +kernel, fun a => ?_, by decide +kernel, fun f => ?_,
    by decide +kernel, by decide +kernel, ?_, fun a => ?_, fun a _ => ?_⟩
  · refine (oldRaw_read (a := "EnclaveRegistry") _ (by decide)).trans ?_
    simp only [free (exact_le 8) (a := n) (b := 1) hn (show 1 < 256 ^ 8 by decide), oldStorage]
    by_cases h : n = 1 <;> simp [h]
  · refine (oldRaw_read (a := "EnclaveIndex") _ (by decide)).trans ?_
    simp only [free (exact_arr 32) (a := a) (b := Demo.alice) trivial trivial, oldStorage]
    by_cases h : a = Demo.alice <;> simp [h]
  · refine (oldRaw_read (a := "SgxTcbInfo") _ (by decide)).trans ?_
    have e : (Slot.tcbInfo f).suffix demoWidths demoHash demoLoc = blakeConcat demoHash (arr 6) f := rfl
    have i := free (exact_arr 6) (a := f) (b := Arr.zero 6) trivial trivial
    rw [e]
    by_cases h : f = Arr.zero 6
    · subst h
      rw [if_neg (by simp), if_neg (by simp), if_neg (by simp), if_neg (by simp), if_pos ⟨rfl, rfl⟩]
      rfl
    · rw [if_neg (by simp), if_neg (by simp), if_neg (by simp), if_neg (by simp), if_neg fun k => h (i.1 k.2),
        if_neg (by simp)]
      simp only [oldStorage, if_neg h]; rfl
  · intro b hb
    have := (oldRaw_read (a := "SgxQuotingEnclaveRegistry") [] (by decide)).symm.trans hb
    simp at this
  · exact (oldRaw_read (a := "SovereignEnclaves") _ (by decide)).trans (by simp [oldStorage, Demo.start, genesis])
  · exact (oldRaw_read (a := "ProxiedEnclaves") _ (by decide)).trans (by simp [oldStorage, Demo.start, genesis])

/-! ### C141 A storage upgrade removes exactly the outdated entries -/

/-- C141: an upgrade from version 0 changes, of the whole storage of the chain, exactly this: the version, the debug
flag, which moves to its new place, and the old registry with its index and count as well as the TCB infos, which are
removed. Every other key keeps its bytes. The hypotheses are met by the examples with `oldRaw` below. -/
theorem C141_from_0 (h : KeyHash) (names : Scale.Pallet → Bytes) (apart : UpgradeApart h names) (r : Raw)
    (h0 : version h (names .teerex) r = 0) (k : Bytes) :
    (v1ToV2 h (names .teerex) (v0ToV1 h (names .teerex) r).1).1.get k =
      if k = itemPrefix h (names .teerex) (asciiBytes ":__STORAGE_VERSION__:") then some [2, 0]
      else if k = itemPrefix h (names .teerex) (asciiBytes "SgxAllowDebugMode") then
        some [if (r.get (itemPrefix h (names .teerex) (asciiBytes "AllowSGXDebugMode"))).bind List.head? = some 1
          then 1 else 0]
      else if k = itemPrefix h (names .teerex) (asciiBytes "AllowSGXDebugMode") ∨
          k = itemPrefix h (names .teerex) (asciiBytes "EnclaveCount") ∨
          itemPrefix h (names .teerex) (asciiBytes "EnclaveRegistry") <+: k ∨
          itemPrefix h (names .teerex) (asciiBytes "EnclaveIndex") <+: k ∨
          itemPrefix h (names .teerex) (asciiBytes "SgxTcbInfo") <+: k then none
      else r.get k := by
  rw [get_v1ToV2 _ _ _ (by rw [version_v0ToV1 _ _ _ h0]; omega), get_v0ToV1 _ _ _ h0]
  have in_use (a : String) (ha : a ∈ upgradeItems) (s : Slot) (t : Bytes) :
      ¬ itemPrefix h (names .teerex) (asciiBytes a) <+: itemPrefix h (names .teerex) (asciiBytes s.item) ++ t :=
    not_under (apart.2.2 a ha s)
  have e1 := in_use "EnclaveIndex" (by decide) .allowDebug []
  have e2 := in_use "EnclaveRegistry" (by decide) .allowDebug []
  have e3 : debugKey h (names .teerex) ≠ countKey h (names .teerex) := by
    have := not_key (p := names .teerex) (q := names .teerex) (t := [])
      (apart.2.2 "EnclaveCount" (by decide) .allowDebug)
    simpa [Slot.item, debugKey, countKey] using this
  have e4 : ¬ tcbPrefix h (names .teerex) <+: debugKey h (names .teerex) := by
    have := not_under (p := names .teerex) (q := names .teerex) (t := [])
      (fun he => absurd (apart.1.2 (.tcbInfo (Arr.zero 6)) .allowDebug he) (by decide))
    simpa [Slot.item, debugKey, tcbPrefix] using this
  simp only [Slot.item, List.append_nil] at e1 e2
  simp only [versionKey, debugKey, oldDebugKey, countKey, registryPrefix, indexPrefix, tcbPrefix] at *
  grind

/-- C141: an upgrade from version 1 changes the version and removes the TCB infos, nothing else. The hypothesis is met
by the examples with `oldRaw` below. -/
theorem C141_from_1 (h : KeyHash) (pallet : Bytes) (r : Raw) (h1 : version h pallet r = 1) (k : Bytes) :
    (v1ToV2 h pallet (v0ToV1 h pallet r).1).1.get k =
      if k = itemPrefix h pallet (asciiBytes ":__STORAGE_VERSION__:") then some [2, 0]
      else if itemPrefix h pallet (asciiBytes "SgxTcbInfo") <+: k then none else r.get k := by
  have : (v0ToV1 h pallet r).1 = r := by unfold v0ToV1; rw [if_pos (by omega)]
  rw [this, get_v1ToV2 _ _ _ (by omega)]; rfl

/-- C141: on a chain at version 2 or above, upgrades leave every byte as it is, in any order and number. The hypothesis
is met by the examples with `oldRaw` below. -/
theorem C141_done (h : KeyHash) (pallet : Bytes) (r : Raw) (h2 : 2 ≤ version h pallet r) (l : List Bool) :
    upgradeAll h pallet l r = r := by
  have e1 : (v0ToV1 h pallet r).1 = r := by unfold v0ToV1; rw [if_pos (by omega)]
  have e2 : (v1ToV2 h pallet r).1 = r := by unfold v1ToV2 Migrations.inCodeVersion; rw [if_pos (by omega)]
  induction l with
  | nil => rfl
  | cons b l ih => cases b <;> simp only [upgradeAll, e1, e2, ih]

theorem upgrade_keeps (h : KeyHash) (pallet : Bytes) (k : Bytes) (hv : k ≠ versionKey h pallet)
    (hd : k ≠ debugKey h pallet) (ho : k ≠ oldDebugKey h pallet) (hc : k ≠ countKey h pallet)
    (hr : ¬ registryPrefix h pallet <+: k) (hi : ¬ indexPrefix h pallet <+: k) (ht : ¬ tcbPrefix h pallet <+: k)
    (l : List Bool) (r : Raw) : (upgradeAll h pallet l r).get k = r.get k := by
  have e1 (r : Raw) : (v0ToV1 h pallet r).1.get k = r.get k := by
    rcases Nat.eq_zero_or_pos (version h pallet r) with h0 | h0
    · rw [get_v0ToV1 _ _ _ h0]; simp [hv, hd, ho, hc, hr, hi]
    · unfold v0ToV1; rw [if_pos (by omega)]
  have e2 (r : Raw) : (v1ToV2 h pallet r).1.get k = r.get k := by
    rcases Nat.lt_or_ge (version h pallet r) 2 with h0 | h0
    · rw [get_v1ToV2 _ _ _ h0]; simp [hv, ht]
    · unfold v1ToV2 Migrations.inCodeVersion; rw [if_pos (by omega)]
  induction l generalizing r with
  | nil => rfl
  | cons b l ih => cases b <;> simp only [upgradeAll, e1, e2, ih]

/-- C141: whatever upgrades run, on whatever version, every entry in use of every pallet keeps its bytes, except TCB
infos and the debug flag. The hypotheses are met by the examples with `oldRaw` below. -/
theorem C141_in_use (w : Widths) (h : KeyHash) (names : Scale.Pallet → Bytes) (loc : Codec Location)
    (apart : UpgradeApart h names) (s : Slot) (hs : s ≠ .allowDebug) (ht : ∀ f, s ≠ .tcbInfo f) (l : List Bool)
    (r : Raw) :
    (upgradeAll h (names .teerex) l r).get (s.key w h names loc) = r.get (s.key w h names loc) := by
  have k (a : String) (ha : a ∈ upgradeItems) := not_key (p := names .teerex) (q := names s.pallet)
    (t := s.suffix w h loc) (apart.2.2 a ha s)
  have u (a : String) (ha : a ∈ upgradeItems) := not_under (p := names .teerex) (q := names s.pallet)
    (t := s.suffix w h loc) (apart.2.2 a ha s)
  refine upgrade_keeps _ _ _ (k _ (by decide)) ?_ (k _ (by decide)) (k _ (by decide)) (u _ (by decide))
    (u _ (by decide)) ?_ l r
  · refine not_key (fun he => ?_)
    have := apart.1.2 .allowDebug s he
    cases s <;> first | exact hs rfl | (revert this; simp [Slot.item])
  · refine not_under (fun he => ?_)
    have := apart.1.2 (.tcbInfo (Arr.zero 6)) s he
    cases s <;> first | exact ht _ rfl | (revert this; simp [Slot.item])

/-- C141: nothing outside this pallet is touched: a key that does not begin with the hash of the name of the pallet
keeps its bytes. -/
theorem C141_outside (h : KeyHash) (pallet : Bytes) (k : Bytes) (hk : ¬ (h.twox128 pallet).val <+: k)
    (l : List Bool) (r : Raw) : (upgradeAll h pallet l r).get k = r.get k := by
  have u (a : Bytes) : ¬ itemPrefix h pallet a <+: k := fun ⟨t, ht⟩ =>
    hk ⟨(h.twox128 a).val ++ t, by rw [← ht]; simp [itemPrefix]⟩
  have e (a : Bytes) : k ≠ itemPrefix h pallet a := fun he => u a (he ▸ List.prefix_refl _)
  exact upgrade_keeps _ _ _ (e _) (e _) (e _) (e _) (u _) (u _) (u _) l r

/-- The raw storage of the example: all outdated entries go, the flag moves, the foreign entry and the enclave that
may skip attestation stay. -/
example : version demoHash (demoNames .teerex) oldRaw = 0 ∧ oldRaw.length = 7 ∧
    (upgradeAll demoHash (demoNames .teerex) [true, false] oldRaw).length = 4 ∧
    (upgradeAll demoHash (demoNames .teerex) [true, false] oldRaw).get (asciiBytes "elsewhere") = some [9] ∧
    (upgradeAll demoHash (demoNames .teerex) [true, false] oldRaw).get (debugKey demoHash (demoNames .teerex)) = some [1] ∧
    UpgradeApart demoHash demoNames := by
  refine ⟨?_, ?_, ?_, ?_, ?_, demoUpgradeApart⟩ <;> decide +kernel

/-- Version 1 and version 2 are reached. -/
example : version demoHash (demoNames .teerex) (v0ToV1 demoHash (demoNames .teerex) oldRaw).1 = 1 ∧
    2 ≤ version demoHash (demoNames .teerex) (upgradeAll demoHash (demoNames .teerex) [true, false] oldRaw) ∧
    ¬ (demoHash.twox128 (demoNames .teerex)).val <+: asciiBytes "elsewhere" := by
  refine ⟨?_, ?_, ?_⟩ <;> decide +kernel

/-- An entry of the pallet in use that no upgrade changes. -/
theorem upgrade_slot {w : Widths} {h : KeyHash} {names : Scale.Pallet → Bytes} {loc : Codec Location}
    (apart : UpgradeApart h names) (s : Slot) (hs : s ≠ .allowDebug) (ht : ∀ f, s ≠ .tcbInfo f) (b : Bool) (r : Raw) :
    (upgradeAll h (names .teerex) [b] r).get (s.key w h names loc) = r.get (s.key w h names loc) :=
  C141_in_use w h names loc apart s hs ht [b] r

theorem represents_v0ToV1 {w : Widths} {h : KeyHash} {names : Scale.Pallet → Bytes} {loc : Codec Location}
    (apart : UpgradeApart h names) {r : Raw} {s : Migrations.St} (hr : Represents w h names loc r s) :
    Represents w h names loc (v0ToV1 h (names .teerex) r).1 (Migrations.v0ToV1 s) := by
  rcases Nat.eq_zero_or_pos s.version with h0 | h0
  case inr =>
    have e1 : (v0ToV1 h (names .teerex) r).1 = r := by unfold v0ToV1; rw [if_pos (by rw [hr.version]; omega)]
    have e2 : Migrations.v0ToV1 s = s := by unfold Migrations.v0ToV1; rw [if_pos (by omega)]
    rw [e1, e2]; exact hr
  have hv := hr.version.trans h0
  have hs : Migrations.v0ToV1 s = { s with
      v0AllowDebug := none, tx := { s.tx with allowDebug := s.v0AllowDebug.getD false }, v0Count := none,
      v0Registry := fun _ => none, v0Index := fun _ => none, version := 1 } := by
    unfold Migrations.v0ToV1; rw [if_neg (by omega)]
  have slot (x : Slot) (a : x ≠ .allowDebug) (b : ∀ f, x ≠ .tcbInfo f) :
      (v0ToV1 h (names .teerex) r).1.get (x.key w h names loc) = r.get (x.key w h names loc) :=
    upgrade_slot apart x a b true r
  have kn (a b : String) (ha : a ∈ upgradeItems) (hb : b ∈ upgradeItems) (hab : a ≠ b) (t : Bytes) :
      itemPrefix h (names .teerex) (asciiBytes b) ++ t ≠ itemPrefix h (names .teerex) (asciiBytes a) :=
    not_key fun he => hab (apart.2.1 a ha b hb he)
  have un (a : String) (ha : a ∈ upgradeItems) (x : Slot) (t : Bytes) :
      ¬ itemPrefix h (names .teerex) (asciiBytes a) <+: itemPrefix h (names x.pallet) (asciiBytes x.item) ++ t :=
    not_under (apart.2.2 a ha x)
  have kx (a : String) (ha : a ∈ upgradeItems) (x : Slot) (t : Bytes) :
      itemPrefix h (names x.pallet) (asciiBytes x.item) ++ t ≠ itemPrefix h (names .teerex) (asciiBytes a) :=
    not_key (apart.2.2 a ha x)
  rw [hs]
  refine ⟨version_v0ToV1 _ _ _ hv, fun n _ => ?_, ?_, fun a => ?_, ?_, fun f => ?_, ?_, ?_, ?_, fun a => ?_, fun a fa => ?_⟩
  · refine (get_v0ToV1 _ _ _ hv _).trans ((if_neg (kn ":__STORAGE_VERSION__:" "EnclaveRegistry" (by decide) (by decide) (by decide) _)).trans ?_)
    exact if_pos (.inr (.inl ⟨_, rfl⟩))
  · have := kn ":__STORAGE_VERSION__:" "EnclaveCount" (by decide) (by decide) (by decide) []
    rw [List.append_nil] at this
    exact (get_v0ToV1 _ _ _ hv _).trans ((if_neg this).trans (if_pos (.inr (.inr rfl))))
  · refine (get_v0ToV1 _ _ _ hv _).trans ((if_neg (kn ":__STORAGE_VERSION__:" "EnclaveIndex" (by decide) (by decide) (by decide) _)).trans ?_)
    exact if_pos (.inl ⟨_, rfl⟩)
  · have k1 := kn ":__STORAGE_VERSION__:" "AllowSGXDebugMode" (by decide) (by decide) (by decide) []
    have k2 : ¬ oldDebugKey h (names .teerex) = debugKey h (names .teerex) := fun he =>
      kx "AllowSGXDebugMode" (by decide) .allowDebug [] (by rw [List.append_nil]; exact he.symm)
    rw [List.append_nil] at k1
    refine (get_v0ToV1 _ _ _ hv _).trans ((if_neg k1).trans ?_)
    rw [if_neg k2, if_pos rfl, ite_self]; rfl
  · have k1 : ¬ (Slot.tcbInfo f).key w h names loc = debugKey h (names .teerex) :=
      not_key fun he => absurd (apart.1.2 .allowDebug (.tcbInfo f) he) (by simp [Slot.item])
    refine (get_v0ToV1 _ _ _ hv _).trans ((if_neg (kx ":__STORAGE_VERSION__:" (by decide) (.tcbInfo f) _)).trans
      ((if_neg ?_).trans ((if_neg k1).trans ((if_neg (kx "AllowSGXDebugMode" (by decide) (.tcbInfo f) _)).trans
        (hr.tcb f)))))
    rintro (h' | h' | h')
    · exact un "EnclaveIndex" (by decide) (.tcbInfo f) _ h'
    · exact un "EnclaveRegistry" (by decide) (.tcbInfo f) _ h'
    · exact kx "EnclaveCount" (by decide) (.tcbInfo f) _ h'
  · have k0 : Slot.allowDebug.key w h names loc = debugKey h (names .teerex) := by
      simp [Slot.key, Slot.suffix, debugKey, Slot.item, Slot.pallet]
    have : (v0ToV1 h (names .teerex) r).1.get (Slot.allowDebug.key w h names loc) =
        some [if s.v0AllowDebug.getD false then 1 else 0] := by
      refine (get_v0ToV1 _ _ _ hv _).trans ((if_neg (kx ":__STORAGE_VERSION__:" (by decide) .allowDebug _)).trans
        ((if_neg ?_).trans ((if_pos k0).trans ?_)))
      · rintro (h' | h' | h')
        · exact un "EnclaveIndex" (by decide) .allowDebug _ h'
        · exact un "EnclaveRegistry" (by decide) .allowDebug _ h'
        · exact kx "EnclaveCount" (by decide) .allowDebug _ h'
      · rw [hr.oldDebug]
        cases s.v0AllowDebug with
        | none => rfl
        | some b => cases b <;> rfl
    unfold Raw.getOr
    rw [this]
    cases s.v0AllowDebug.getD false <;> rfl
  · have := slot .allowSkip (by simp) (by simp)
    unfold Raw.getOr; rw [this]; exact hr.skip
  · rw [slot .quotingEnclave (by simp) (by simp)]; exact hr.quoting
  · rw [slot (.sovereignEnclaves a) (by simp) (by simp)]; exact hr.sovereign a
  · rw [slot (.proxiedEnclaves a) (by simp) (by simp)]; exact hr.proxied a fa

theorem represents_v1ToV2 {w : Widths} {h : KeyHash} {names : Scale.Pallet → Bytes} {loc : Codec Location}
    (apart : UpgradeApart h names) {r : Raw} {s : Migrations.St} (hr : Represents w h names loc r s) :
    Represents w h names loc (v1ToV2 h (names .teerex) r).1 (Migrations.v1ToV2 s) := by
  rcases Nat.lt_or_ge s.version 2 with h0 | h0
  case inr =>
    have e1 : (v1ToV2 h (names .teerex) r).1 = r := by
      unfold v1ToV2 Migrations.inCodeVersion; rw [if_pos (by rw [hr.version]; omega)]
    have e2 : Migrations.v1ToV2 s = s := by
      unfold Migrations.v1ToV2 Migrations.inCodeVersion; rw [if_pos (by omega)]
    rw [e1, e2]; exact hr
  have hv : version h (names .teerex) r < 2 := by rw [hr.version]; exact h0
  have hs : Migrations.v1ToV2 s = { s with tcbInfo := fun _ => none, version := 2 } := by
    unfold Migrations.v1ToV2 Migrations.inCodeVersion; rw [if_neg (by omega)]
  have slot (x : Slot) (a : x ≠ .allowDebug) (b : ∀ f, x ≠ .tcbInfo f) :
      (v1ToV2 h (names .teerex) r).1.get (x.key w h names loc) = r.get (x.key w h names loc) :=
    upgrade_slot apart x a b false r
  have old (a : String) (ha : a ∈ upgradeItems) (hav : ":__STORAGE_VERSION__:" ≠ a) (t : Bytes) :
      (v1ToV2 h (names .teerex) r).1.get (itemPrefix h (names .teerex) (asciiBytes a) ++ t) =
        r.get (itemPrefix h (names .teerex) (asciiBytes a) ++ t) := by
    refine (get_v1ToV2 _ _ _ hv _).trans ((if_neg ?_).trans (if_neg ?_))
    · exact not_key fun he => hav (apart.2.1 ":__STORAGE_VERSION__:" (by decide) a ha he)
    · exact not_under fun he => apart.2.2 a ha (.tcbInfo (Arr.zero 6)) he.symm
  rw [hs]
  refine ⟨version_v1ToV2 _ _ _ hv, fun n hn => ?_, ?_, fun a => ?_, ?_, fun f => ?_, ?_, ?_, ?_, fun a => ?_, fun a fa => ?_⟩
  · exact (old "EnclaveRegistry" (by decide) (by decide) _).trans (hr.registry n hn)
  · have := old "EnclaveCount" (by decide) (by decide) []
    rw [List.append_nil] at this
    exact this.trans hr.count
  · exact (old "EnclaveIndex" (by decide) (by decide) _).trans (hr.index a)
  · have := old "AllowSGXDebugMode" (by decide) (by decide) []
    rw [List.append_nil] at this
    exact this.trans hr.oldDebug
  · exact (get_v1ToV2 _ _ _ hv _).trans ((if_neg (not_key (apart.2.2 ":__STORAGE_VERSION__:" (by decide) (.tcbInfo f)))).trans
      (if_pos ⟨_, rfl⟩))
  · have : (v1ToV2 h (names .teerex) r).1.get (Slot.allowDebug.key w h names loc) =
        r.get (Slot.allowDebug.key w h names loc) := by
      refine (get_v1ToV2 _ _ _ hv _).trans ((if_neg (not_key (apart.2.2 ":__STORAGE_VERSION__:" (by decide)
        .allowDebug))).trans (if_neg ?_))
      exact not_under fun he => absurd (apart.1.2 (.tcbInfo (Arr.zero 6)) .allowDebug he) (by simp [Slot.item])
    unfold Raw.getOr; rw [this]; exact hr.debug
  · have := slot .allowSkip (by simp) (by simp)
    unfold Raw.getOr; rw [this]; exact hr.skip
  · rw [slot .quotingEnclave (by simp) (by simp)]; exact hr.quoting
  · rw [slot (.sovereignEnclaves a) (by simp) (by simp)]; exact hr.sovereign a
  · rw [slot (.proxiedEnclaves a) (by simp) (by simp)]; exact hr.proxied a fa

/-- C141: if the raw storage holds some storage of the pallet, then after any upgrades it holds what the upgrades make
of that storage: what is proved of upgrades of the maps of the pallet (C65, C84, C129) holds of the bytes. -/
theorem C141_refines (w : Widths) (h : KeyHash) (names : Scale.Pallet → Bytes) (loc : Codec Location)
    (apart : UpgradeApart h names) (r : Raw) (s : Migrations.St) (hr : Represents w h names loc r s)
    (l : List Bool) : Represents w h names loc (upgradeAll h (names .teerex) l r) (migrateAll l s) := by
  induction l generalizing r s with
  | nil => exact hr
  | cons b l ih =>
    cases b with
    | true => exact ih _ _ (represents_v0ToV1 apart hr)
    | false => exact ih _ _ (represents_v1ToV2 apart hr)

example : Represents demoWidths demoHash demoNames demoLoc oldRaw oldStorage ∧ UpgradeApart demoHash demoNames ∧
    (oldStorage.v0Registry 1).isSome ∧ ((migrateAll [true, false] oldStorage).v0Registry 1).isNone ∧
    oldStorage.tcbInfo (Arr.zero 6) = some (.inl ⟨1, 2⟩) :=
  ⟨oldRaw_represents, demoUpgradeApart, rfl, rfl, rfl⟩

/-! ### C142 Upgrades declare at least the writes they make -/

/-- The full claim: no upgrade changes more entries than the writes it declares. It is false for the code (see
`C142_refuted`). -/
def C142_Full : Prop := ∀ (h : KeyHash) (names : Scale.Pallet → Bytes), UpgradeApart h names → ∀ r : Raw,
  EntriesDiffer (v0ToV1 h (names .teerex) r).2.writes r (v0ToV1 h (names .teerex) r).1 ∧
    EntriesDiffer (v1ToV2 h (names .teerex) r).2.writes r (v1ToV2 h (names .teerex) r).1

/-- A chain at version 0 with an empty registry: debug mode allowed, count zero. -/
def emptyOld : Raw :=
  [(oldDebugKey demoHash (demoNames .teerex), [1]), (countKey demoHash (demoNames .teerex), [0, 0, 0, 0, 0, 0, 0, 0])]

/-- On it the first upgrade changes four entries and declares three writes. -/
theorem C142_refuted : ¬ C142_Full := by
  intro full
  obtain ⟨l, hl, hk⟩ := (full demoHash demoNames demoUpgradeApart emptyOld).1
  have hw : (v0ToV1 demoHash (demoNames .teerex) emptyOld).2.writes = 3 := by decide +kernel
  rw [hw] at hl
  let ks := [versionKey demoHash (demoNames .teerex), debugKey demoHash (demoNames .teerex),
    oldDebugKey demoHash (demoNames .teerex), countKey demoHash (demoNames .teerex)]
  have nd : ks.Nodup := by decide +kernel
  have diff : ∀ k ∈ ks, (v0ToV1 demoHash (demoNames .teerex) emptyOld).1.get k ≠ emptyOld.get k := by decide +kernel
  have := nodup_length_le nd fun k hm => Classical.byContradiction fun hn => diff k hm (hk k hn)
  simp only [ks, List.length_cons, List.length_nil] at this
  omega

theorem get_of_not_cleared {r : Raw} {p k : Bytes}
    (hk : k ∉ (r.filter fun e => p.isPrefixOf e.1).map (·.1)) : (r.clear p).1.get k = r.get k := by
  rw [get_clear]
  split
  · rename_i hp
    unfold Raw.get
    rw [List.find?_eq_none.2]
    · rfl
    · intro e he hek
      refine hk (List.mem_map.2 ⟨e, List.mem_filter.2 ⟨he, ?_⟩, by simpa using hek⟩)
      rw [List.isPrefixOf_iff_prefix, show e.1 = k by simpa using hek]; exact hp
  · rfl

/-- C142, partial: the second upgrade never changes more entries than it declares writes, the first at most one more.
Missing: one more write in the weight of the first. -/
theorem C142_partial (h : KeyHash) (pallet : Bytes) (r : Raw) :
    EntriesDiffer ((v0ToV1 h pallet r).2.writes + 1) r (v0ToV1 h pallet r).1 ∧
      EntriesDiffer (v1ToV2 h pallet r).2.writes r (v1ToV2 h pallet r).1 := by
  constructor
  · unfold v0ToV1
    split
    · exact ⟨[], by simp, fun _ _ => rfl⟩
    · simp only
      refine ⟨versionKey h pallet :: debugKey h pallet :: oldDebugKey h pallet :: countKey h pallet ::
        (((((r.kill (oldDebugKey h pallet)).put (debugKey h pallet)
          (Scale.bool.enc (r.getOr (oldDebugKey h pallet) Scale.bool false))).kill (countKey h pallet)).filter
            fun e => (registryPrefix h pallet).isPrefixOf e.1).map (·.1) ++
        (((((r.kill (oldDebugKey h pallet)).put (debugKey h pallet)
          (Scale.bool.enc (r.getOr (oldDebugKey h pallet) Scale.bool false))).kill (countKey h pallet)).clear
            (registryPrefix h pallet)).1.filter fun e => (indexPrefix h pallet).isPrefixOf e.1).map (·.1)), ?_, ?_⟩
      · simp only [List.length_cons, List.length_append, List.length_map, Raw.clear]; omega
      · intro k hk
        simp only [List.mem_cons, List.mem_append, not_or] at hk
        obtain ⟨h1, h2, h3, h4, h5, h6⟩ := hk
        rw [get_put, if_neg h1, get_of_not_cleared h6, get_of_not_cleared h5, get_kill, if_neg h4, get_put,
          if_neg h2, get_kill, if_neg h3]
  · unfold v1ToV2
    split
    · exact ⟨[], by simp, fun _ _ => rfl⟩
    · simp only
      refine ⟨versionKey h pallet :: (r.filter fun e => (tcbPrefix h pallet).isPrefixOf e.1).map (·.1), ?_, ?_⟩
      · simp only [List.length_cons, List.length_map, Raw.clear]; omega
      · intro k hk
        simp only [List.mem_cons, not_or] at hk
        rw [get_put, if_neg hk.1, get_of_not_cleared hk.2]

/-! ### C143 An entry of the old format is never taken for one of the new format -/

/-- C143: the bytes of a TCB info of version 1 cannot be read as one of version 2: if one was left behind, the pallet
would find no TCB info for that platform, rather than one with invented levels. -/
theorem C143_tcb_info (t : Migrations.TcbInfoV1) : tcbInfoOnChain.dec (tcbInfoV1.enc t) = none := by
  cases hd : tcbInfoOnChain.dec (tcbInfoV1.enc t) with
  | none => rfl
  | some x =>
    exfalso
    obtain ⟨v, rest⟩ := x
    obtain ⟨_, he⟩ := exact_tcbInfoOnChain.only _ _ _ hd
    have hl := congrArg List.length he
    have hc : 0 < (compactEnc v.tcbLevels.length).length := by
      unfold compactEnc
      split
      · simp
      · split
        · simp
        · split <;> simp
    simp [tcbInfoOnChain, tcbInfoV1, iso, pair, le, vec] at hl
    omega

example : tcbInfoV1.enc ⟨1, 2⟩ = [1, 0, 0, 0, 0, 0, 0, 0, 2, 0, 0, 0, 0, 0, 0, 0] := by decide +kernel

/-- C143: so with an entry of version 1 in the raw storage, reading the TCB info of that platform gives nothing. -/
theorem C143_read (w : Widths) (h : KeyHash) (names : Scale.Pallet → Bytes) (loc : Codec Location) (r : Raw)
    (s : Migrations.St) (hr : Represents w h names loc r s) (f : Fmspc) (t : Migrations.TcbInfoV1)
    (ht : s.tcbInfo f = some (.inl t)) :
    (r.get ((Slot.tcbInfo f).key w h names loc)).isSome ∧
      (r.get ((Slot.tcbInfo f).key w h names loc)).bind tcbInfoOnChain.dec = none := by
  rw [hr.tcb f, ht]
  exact ⟨rfl, C143_tcb_info t⟩

/-- The entry of version 1 of the example above is there and cannot be read. -/
example : oldRaw.get ((Slot.tcbInfo (Arr.zero 6)).key demoWidths demoHash demoNames demoLoc) =
      some [1, 0, 0, 0, 0, 0, 0, 0, 2, 0, 0, 0, 0, 0, 0, 0] ∧
    tcbInfoOnChain.dec [1, 0, 0, 0, 0, 0, 0, 0, 2, 0, 0, 0, 0, 0, 0, 0] = none :=
  ⟨by decide +kernel, C143_tcb_info ⟨1, 2⟩⟩

end Verif
