import Verif.Spec.StorageMap
import Verif.Props.RawStorage
import Verif.Props.ScaleRun

/-!
# C157: the table of the storage

Every key of the raw storage is where the table of `Spec/StorageMap` says, and holds the bytes it says.
-/

namespace Verif

open Scale

theorem key_layout (w : Widths) (h : KeyHash) (names : Pallet → Bytes) (loc : Codec Location) (x : Slot)
    (hx : Fits.slot w loc.fits x) : x.key w h names loc = Layout.key w h names loc.enc x := by
  cases x <;>
    simp only [Slot.key, Slot.pallet, Slot.item, Slot.suffix, itemPrefix, blakeConcat, Layout.key, Layout.place, Layout.hashed,
      arr, layout_le, List.append_nil, Fits.slot] at hx ⊢
  · rw [layout_address _ hx]
  · rw [layout_text _ hx.1, layout_text _ hx.2]
  · rw [layout_text _ hx.1, layout_text _ hx.2]
  · rw [layout_text _ hx]

theorem map_layout {α : Type} {o : Option α} {f g : α → Bytes} (h : ∀ v, o = some v → f v = g v) : o.map f = o.map g := by
  cases o with
  | none => rfl
  | some v => simp [h v rfl]

theorem value_layout {w : Widths} {loc : Codec Location} {m : Nat} {s : Chain} (hs : Fits.storage w m loc.fits s) (x : Slot) :
    x.value w loc m s = Layout.value w loc.enc s x := by
  cases x <;> simp only [Slot.value, Layout.value, Option.some.injEq]
  · exact map_layout fun v h => (C116_teerdays w).1.1 v (hs.bonds _ v h)
  · exact map_layout fun v h => (C116_teerdays w).2.1 v (hs.pending _ v h)
  · exact map_layout fun v h => C116_teerex.1.1 v (hs.sovereign _ v h)
  · exact map_layout fun v h => C116_teerex.1.1 v (hs.proxied _ v h).2
  · exact C116_teerex.2.2.1.1 _ hs.quotingEnclave
  · exact map_layout fun v h => C116_teerex.2.2.2.1 v (hs.tcbInfo _ v h)
  · exact layout_flag _
  · exact layout_flag _
  · exact map_layout fun v h => (C116_shards w).1.1 v (hs.status _ v h)
  · exact map_layout fun v h => (C116_shards w).2.1.1 v (hs.config _ v h)
  · exact map_layout fun v _ => layout_le 8 v
  · exact map_layout fun v h => (C116_shards w).2.2.1 v (hs.latest _ v h)
  · exact map_layout fun v _ => layout_le 8 v
  · exact map_layout fun v h => layout_blob v m (hs.blobs _ _ v h).2.2.1
  · rename_i o
    by_cases ho : s.orc.whitelist o = []
    · rw [ho]; rfl
    · exact layout_list _ _ _ (hs.whitelist o ho).2 fun _ _ => rfl
  · exact map_layout fun v _ => layout_le _ v
  · exact layout_le _ _
  · exact map_layout fun v h => (C116_claims w).1.1 v (hs.vesting _ v h)
  · exact map_layout fun v _ => (C116_claims w).2.1 v trivial
  · rfl
  · exact map_layout fun v _ => layout_le _ v

/-- **C157**: at every point of every history, the raw storage of the pallets is exactly the table: a key is in use if
and only if it is the documented key of an entry that exists, and the bytes under it are the documented bytes of that
entry. Hypotheses as in C119: the clock and the block number are in range, calls are decoded calls, and the storage was
in range at the beginning. -/
theorem C157_table {c : Cfg} {w : Widths} {loc : Codec Location} (h : KeyHash) (names : Pallet → Bytes)
    (hc : Fits.Config w c) (hx : Fits.Parsers c.ext) {s : Chain} (hs : Fits.storage w c.maxBlob loc.fits s)
    (ops : List Op) (hq : ∀ op ∈ ops, Fits.op w c.maxBlob loc.fits op)
    (hn : Fits.number w.moment (run c s ops).now) (hb : Fits.number w.block (run c s ops).block) (key v : Bytes) :
    Holds w h names loc c.maxBlob (run c s ops) key v ↔
      ∃ x, Fits.slot w loc.fits x ∧ Layout.key w h names loc.enc x = key ∧
        Layout.value w loc.enc (run c s ops) x = some v := by
  have f := C119_in_range hc hx hs ops hq hn hb
  refine exists_congr fun x => and_congr_right fun hf => ?_
  rw [key_layout w h names loc x hf, value_layout f x]

/-- **C157** (reading): whoever looks up the documented key of an entry finds its documented bytes, and nothing if
there is no such entry. The hashes of the names of pallets and items have to differ, the hash of the keys may be any. -/
theorem C157_lookup {c : Cfg} {w : Widths} {loc : Codec Location} (hloc : Faithful loc loc.enc loc.fits) (h : KeyHash)
    (names : Pallet → Bytes) (apart : NamesApart h names)
    (hc : Fits.Config w c) (hx : Fits.Parsers c.ext) {s : Chain} (hs : Fits.storage w c.maxBlob loc.fits s)
    (ops : List Op) (hq : ∀ op ∈ ops, Fits.op w c.maxBlob loc.fits op)
    (hn : Fits.number w.moment (run c s ops).now) (hb : Fits.number w.block (run c s ops).block)
    (x : Slot) (hf : Fits.slot w loc.fits x) (v : Bytes) :
    Holds w h names loc c.maxBlob (run c s ops) (Layout.key w h names loc.enc x) v ↔
      Layout.value w loc.enc (run c s ops) x = some v := by
  rw [C157_table h names hc hx hs ops hq hn hb]
  constructor
  · rintro ⟨y, hy, hk, hv⟩
    rw [← key_layout w h names loc x hf, ← key_layout w h names loc y hy] at hk
    have : y = x := C118_keys w h names loc hloc apart y x hy hf (by rw [hk]; exact List.prefix_refl _)
    rw [← this]
    exact hv
  · intro hv
    exact ⟨x, hf, rfl, hv⟩

/-- The hypotheses are met by a history that stores collateral, enclaves, a bond and a shard status: the bond of one
account is found under its documented key, 40 tokens at time 5050 with token time 2000; the other account has none. -/
example : NamesApart demoHash demoNames ∧
    Layout.key demoWidths demoHash demoNames demoLoc.enc (.teerDayBonds Demo.alice) =
      asciiBytes "Teerdays" ++ List.replicate 8 0 ++ asciiBytes "TeerDayBonds" ++ List.replicate 4 0 ++
        List.replicate 16 0 ++ Demo.alice.val ∧
    Holds demoWidths demoHash demoNames demoLoc twoDocsCfg.maxBlob (run twoDocsCfg Demo.start mixedHistory)
      (Layout.key demoWidths demoHash demoNames demoLoc.enc (.teerDayBonds Demo.alice))
      ([40] ++ List.replicate 15 0 ++ [0xba, 0x13] ++ List.replicate 6 0 ++ [0xd0, 0x07] ++ List.replicate 14 0) ∧
    ∀ v, ¬ Holds demoWidths demoHash demoNames demoLoc twoDocsCfg.maxBlob (run twoDocsCfg Demo.start mixedHistory)
      (Layout.key demoWidths demoHash demoNames demoLoc.enc (.teerDayBonds Demo.carol)) v := by
  have look := fun x hf v => C157_lookup (c := twoDocsCfg) (w := demoWidths) (loc := demoLoc) demoLoc_faithful demoHash demoNames demoApart
    ⟨by decide, by decide, by decide, by decide, by decide, by decide⟩ twoDocs_parsers (start_fits _) mixedHistory
    (mixed_fits _) (by decide +kernel) (by decide +kernel) x hf v
  refine ⟨demoApart, by decide +kernel, (look (.teerDayBonds Demo.alice) trivial _).mpr (by decide +kernel), fun v hv => ?_⟩
  have := (look (.teerDayBonds Demo.carol) trivial v).mp hv
  have none : Layout.value demoWidths demoLoc.enc (run twoDocsCfg Demo.start mixedHistory) (.teerDayBonds Demo.carol) = none := by
    decide +kernel
  rw [none] at this
  cases this

end Verif
