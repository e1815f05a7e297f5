import Verif.Spec.ScaleXcm
import Verif.Model.ScaleXcm
import Verif.Props.ScaleRun

/-!
# C138: the bytes of XCM locations
-/

namespace Verif
open Scale

namespace Scale

theorem exact_networkId : Exact networkId := by
  refine exact_enum ?_
  variants
  have := exact_compact 8 (by decide) (by decide)
  have := exact_pair (exact_le 8) (exact_arr 32)
  and_intros <;> exact_field

theorem exact_bodyId : Exact bodyId := by
  refine exact_enum ?_
  variants
  have := exact_compact 4 (by decide) (by decide)
  and_intros <;> exact_field

theorem exact_bodyPart : Exact bodyPart := by
  refine exact_enum ?_
  variants
  have := exact_compact 4 (by decide) (by decide)
  have := exact_pair this this
  and_intros <;> exact_field

theorem exact_junction : Exact junction := by
  refine exact_enum ?_
  variants
  have c4 := exact_compact 4 (by decide) (by decide)
  have c8 := exact_compact 8 (by decide) (by decide)
  have c16 := exact_compact 16 (by decide) (by decide)
  have n := exact_opt exact_networkId
  exact ⟨c4, exact_pair n (exact_arr _), exact_pair n c8, exact_pair n (exact_arr _), exact_le _, c16,
    exact_pair (exact_le _) (exact_arr _), exact_unit, exact_pair exact_bodyId exact_bodyPart, exact_networkId⟩

theorem exact_junctions : Exact junctions where
  read l r h := by
    simp only [junctions, List.cons_append]
    rw [ofNat_toNat_of_lt (Nat.lt_of_le_of_lt h.1 (by decide)), if_pos h.1]
    exact decN_read exact_junction l r h.2
  only i l r h := by
    cases i with
    | nil => simp [junctions] at h
    | cons t i =>
      simp only [junctions] at h
      split at h
      · rename_i ht
        obtain ⟨hl, f, rfl⟩ := decN_only exact_junction _ _ _ _ h
        refine ⟨⟨by omega, f⟩, ?_⟩
        simp [junctions, hl]
      · simp at h

theorem exact_location : Exact location :=
  exact_iso (exact_pair (exact_le _) exact_junctions) (fun _ => rfl) (fun _ => rfl)

end Scale

/-- Ranges of an enum, case by case. -/
macro "enum_fits" d:ident : tactic => `(tactic| (
  unfold $d
  simp only [fits_enum_cons, fits_enum_nil, Variant.fits, or_false, false_or, reduceCtorEq, false_and, exists_false,
    Option.some.injEq, exists_eq_left', pair, fits_number, fits_option, fits_compact, fits_arr, fits_unit, true_and,
    and_true, implies_true, exists_const, exists_eq', and_self, and_assoc]))

/-- Bytes of an enum, case by case. -/
macro "enum_layout" d:ident : tactic => `(tactic|
  simp only [$d:ident, enum, List.findSome?, Variant.enc?, Option.map, Option.getD, pair, List.append_assoc, layout_le,
    layout_arr, unit])

theorem fits_network (n : NetworkId) : networkId.fits n ↔ Fits.network n := by
  cases n <;> enum_fits networkId <;> simp only [Fits.network]

theorem layout_network (n : NetworkId) (h : Fits.network n) : networkId.enc n = Layout.network n := by
  cases n <;> enum_layout networkId <;> simp only [Layout.network]
  rw [layout_compact 8 _ (by decide) h]

theorem fits_body (n : BodyId) : bodyId.fits n ↔ Fits.body n := by
  cases n <;> enum_fits bodyId <;> simp only [Fits.body]

theorem layout_body (n : BodyId) (h : Fits.body n) : bodyId.enc n = Layout.body n := by
  cases n <;> enum_layout bodyId <;> simp only [Layout.body]
  rw [layout_compact 4 _ (by decide) h]

theorem fits_part (n : BodyPart) : bodyPart.fits n ↔ Fits.part n := by
  cases n <;> enum_fits bodyPart <;> simp only [Fits.part]

theorem layout_part (n : BodyPart) (h : Fits.part n) : bodyPart.enc n = Layout.part n := by
  cases n <;> enum_layout bodyPart <;> simp only [Layout.part]
  · rw [layout_compact 4 _ (by decide) h]
  all_goals rw [layout_compact 4 _ (by decide) h.1, layout_compact 4 _ (by decide) h.2]

theorem fits_junction (j : Junction) : junction.fits j ↔ Fits.junction j := by
  cases j <;> enum_fits junction <;> simp only [Fits.junction, fits_network, fits_body, fits_part]

theorem layout_junction (j : Junction) (h : Fits.junction j) : junction.enc j = Layout.junction j := by
  cases j <;> enum_layout junction <;> simp only [Layout.junction]
  · rw [layout_compact 4 _ (by decide) h]
  · rw [layout_option networkId Layout.network _ fun x hx => layout_network x (h x hx)]
  · rw [layout_option networkId Layout.network _ fun x hx => layout_network x (h.1 x hx),
      layout_compact 8 _ (by decide) h.2]
  · rw [layout_option networkId Layout.network _ fun x hx => layout_network x (h x hx)]
  · rw [layout_compact 16 _ (by decide) h]
  · rw [layout_body _ h.1, layout_part _ h.2]
  · rw [layout_network _ h]

theorem fits_location (l : Location) : location.fits l ↔ Fits.location l := by
  simp only [location, iso, pair, fits_number, Fits.location, junctions, fits_junction]

/-- C138: the bytes of a location are its number of parents, its number of junctions and its junctions; reading them
yields that location, and nothing else is read as a location. -/
theorem C138_location : Faithful location Layout.location Fits.location := by
  refine faithful_of exact_location fits_location fun l h => ?_
  simp only [location, iso, pair, layout_le, Layout.location, junctions, List.append_assoc]
  rw [number_one l.interior.length (Nat.lt_of_le_of_lt h.2.1 (by decide))]
  simp only [List.flatMap, List.cons_append, List.nil_append]
  rw [List.map_congr_left fun j hj => layout_junction j (h.2.2 j hj)]

/-- The USDT asset of the Kusama asset hub seen from a sibling; more than eight junctions, unknown variants and numbers
that are not in their shortest form are refused. -/
example :
    let usdt : Location := ⟨1, [.parachain 1000, .palletInstance 50, .generalIndex 1984]⟩
    Fits.location usdt ∧ Layout.location usdt = [1, 3, 0, 161, 15, 4, 50, 5, 1, 31] ∧
    location.dec [1, 3, 0, 161, 15, 4, 50, 5, 1, 31, 9] = some (usdt, [9]) ∧
    location.dec (1 :: 9 :: List.replicate 9 7) = none ∧ location.dec [0, 1, 10] = none ∧
    location.dec [1, 1, 0, 162, 15, 0, 0] = none := by
  refine ⟨⟨by decide, by decide, ?_⟩, by decide +kernel, by decide +kernel, by decide +kernel, by decide +kernel,
    by decide +kernel⟩
  intro j hj
  simp only [List.mem_cons, List.not_mem_nil, or_false] at hj
  rcases hj with rfl | rfl | rfl <;> (simp only [Fits.junction]; decide)

/-- C138 (calls): the bytes of a call of asset-registry with the locations of XCM v4. -/
theorem C138_calls (w : Widths) :
    Faithful (assetRegistryCall w location) (Layout.call w Layout.location)
      (fun c => c.palletOf = some .assetRegistry ∧ Fits.call w 0 Fits.location c) := by
  refine faithful_of (exact_assetRegistryCall w exact_location) (fun c => ?_) fun c h => ?_
  · cases c <;> call_fits assetRegistryCall
    · rw [fits_location]
  · obtain ⟨hp, hf⟩ := h
    cases c <;> simp only [Call.palletOf, reduceCtorEq, Option.some.injEq] at hp <;> simp only [Fits.call] at hf <;>
      call_layout assetRegistryCall
    · rw [C138_location.1 _ hf.2]

example : (assetRegistryCall demoWidths location).dec [0, 7, 0, 0, 0, 1, 1, 0, 161, 15, 3] =
    some (.registerReserveAsset 7 ⟨1, [.parachain 1000]⟩, [3]) := by decide +kernel

/-- C138 (storage): whatever is registered, under whatever keys, in any history whose calls have been read from bytes:
every stored location reads back as the location that was registered, and the key of an entry is not the beginning of
the key of any other entry. -/
theorem C138_stored {c : Cfg} {w : Widths} (hc : Fits.Config w c) (hx : Fits.Parsers c.ext) {s : Chain}
    (hs : Fits.storage w c.maxBlob Fits.location s) (ops : List Op)
    (hq : ∀ op ∈ ops, Fits.op w c.maxBlob Fits.location op) (hn : Fits.number w.moment (run c s ops).now)
    (hb : Fits.number w.block (run c s ops).block) (h : KeyHash) (names : Pallet → Bytes) (apart : NamesApart h names) :
    (∀ i l, (run c s ops).ar.idLoc i = some l →
      location.dec (Layout.location l) = some (l, []) ∧
      ∀ t, Fits.slot w Fits.location t → Slot.key w h names location (.assetIdLocation i) <+: t.key w h names location →
        t = .assetIdLocation i) ∧
    (∀ l i, (run c s ops).ar.locId l = some i →
      location.dec (Layout.location l) = some (l, []) ∧
      ∀ t, Fits.slot w Fits.location t → Slot.key w h names location (.assetLocationId l) <+: t.key w h names location →
        t = .assetLocationId l) := by
  have f := C119_in_range hc hx hs ops hq hn hb
  have hf : location.fits = Fits.location := funext fun l => propext (fits_location l)
  have hloc : Faithful location location.enc location.fits := faithful_of exact_location (fun _ => .rfl) fun _ _ => rfl
  have back {l : Location} (hl : Fits.location l) : location.dec (Layout.location l) = some (l, []) :=
    (C138_location.2 _ _ _).2 ⟨hl, by simp⟩
  refine ⟨fun i l hi => ⟨back (f.idLoc i l hi).2, fun t ht hk => ?_⟩, fun l i hi => ⟨back (f.locId l i hi).2, fun t ht hk => ?_⟩⟩
  · exact (C118_keys w h names location hloc apart (.assetIdLocation i) t (f.idLoc i l hi).1 (hf ▸ ht) hk).symm
  · exact (C118_keys w h names location hloc apart (.assetLocationId l) t (show location.fits l from hf ▸ (f.locId l i hi).2) (hf ▸ ht) hk).symm

/-- The hypotheses hold of a history that registers an asset; its location is stored. -/
example :
    let c : Cfg := { twoDocsCfg with assetOrigin := fun o => o == .root }
    let s : Chain := { Demo.start with assets := fun i => if i = 7 then some 1 else none }
    let ops : List Op := [.ext .root (.registerReserveAsset 7 ⟨1, [.parachain 1000]⟩)]
    Fits.Config demoWidths c ∧ Fits.Parsers c.ext ∧ Fits.storage demoWidths c.maxBlob Fits.location s ∧
    (∀ op ∈ ops, Fits.op demoWidths c.maxBlob Fits.location op) ∧ Fits.number demoWidths.moment (run c s ops).now ∧
    Fits.number demoWidths.block (run c s ops).block ∧ NamesApart demoHash demoNames ∧
    (run c s ops).ar.idLoc 7 = some ⟨1, [.parachain 1000]⟩ := by
  have h := start_fits Fits.location
  refine ⟨⟨by decide, by decide, by decide, by decide, by decide, by decide⟩, twoDocs_parsers,
    ⟨h.1, h.2, h.3, h.4, h.5, h.6, h.7, h.8, h.9, h.10, h.11, h.12, h.13, h.14, h.15, h.16, h.17, h.18⟩, ?_, by decide +kernel,
    by decide +kernel, demoApart, by decide +kernel⟩
  intro op hop
  simp only [List.mem_cons, List.not_mem_nil, or_false] at hop
  subst hop
  refine ⟨by decide, by decide, by decide, ?_⟩
  intro j hj
  simp only [List.mem_cons, List.not_mem_nil, or_false] at hj
  subst hj
  show (1000 : Nat) < _
  decide

end Verif
