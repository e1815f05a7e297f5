import Verif.Spec.RawStorage
import Verif.Props.ScaleRun
import Verif.Props.Bridge

/-!
# The raw storage: C127 - C128
-/

namespace Verif

open Scale

/-! ### C127 The bytes tell everything -/

theorem Faithful.inj {α : Type} {k : Codec α} {f : α → Bytes} {p : α → Prop} (h : Faithful k f p) {a b : α}
    (ha : p a) (hb : p b) (he : k.enc a = k.enc b) : a = b := by
  have h1 := h.readsBack ha
  have h2 := h.readsBack hb
  unfold ReadsBack at h1 h2
  rw [he, h2] at h1
  simpa using h1.symm

theorem Scale.Exact.inj {α : Type} {k : Codec α} (h : Scale.Exact k) {a b : α} (ha : k.fits a) (hb : k.fits b)
    (he : k.enc a = k.enc b) : a = b := by
  have h1 := h.readsBack ha
  have h2 := h.readsBack hb
  unfold ReadsBack at h1 h2
  rw [he, h2] at h1
  simpa using h1.symm

/-- Equal encodings of two optional values. -/
theorem map_enc_inj {α : Type} {k : Codec α} {P : α → Prop} (hk : ∀ a b, P a → P b → k.enc a = k.enc b → a = b)
    {x y : Option α} (hx : ∀ a, x = some a → P a) (hy : ∀ a, y = some a → P a) (h : x.map k.enc = y.map k.enc) : x = y := by
  cases x <;> cases y <;> simp_all
  exact hk _ _ hx hy h

/-- An absent or present entry of a map of one state is that of another one, if the bytes are the same. -/
theorem value_tells {w : Widths} {loc : Codec Location} (hloc : Faithful loc loc.enc loc.fits) {m : Nat} {s t : Chain}
    (hs : Fits.storage w m loc.fits s) (ht : Fits.storage w m loc.fits t) (x : Slot)
    (h : x.value w loc m s = x.value w loc m t) : x.same s t := by
  have num {n a b : Nat} (ha : Fits.number n a) (hb : Fits.number n b) (he : (le n).enc a = (le n).enc b) : a = b :=
    (exact_le n).inj ((fits_number n a).2 ha) ((fits_number n b).2 hb) he
  cases x with
  | teerDayBonds a => exact map_enc_inj (fun _ _ => (C116_teerdays w).1.inj) (hs.bonds a) (ht.bonds a) h
  | pendingUnlock a => exact map_enc_inj (fun _ _ => (C116_teerdays w).2.inj) (hs.pending a) (ht.pending a) h
  | sovereignEnclaves a => exact map_enc_inj (fun _ _ => C116_teerex.1.inj) (hs.sovereign a) (ht.sovereign a) h
  | proxiedEnclaves a =>
    exact map_enc_inj (fun _ _ => C116_teerex.1.inj) (fun e he => (hs.proxied a e he).2) (fun e he => (ht.proxied a e he).2) h
  | quotingEnclave => exact C116_teerex.2.2.1.inj hs.quotingEnclave ht.quotingEnclave (Option.some.inj h)
  | tcbInfo f => exact map_enc_inj (fun _ _ => C116_teerex.2.2.2.inj) (hs.tcbInfo f) (ht.tcbInfo f) h
  | allowDebug => exact exact_bool.inj trivial trivial (Option.some.inj h)
  | allowSkip => exact exact_bool.inj trivial trivial (Option.some.inj h)
  | shardStatus i => exact map_enc_inj (fun _ _ => (C116_shards w).1.inj) (hs.status i) (ht.status i) h
  | shardConfig i => exact map_enc_inj (fun _ _ => (C116_shards w).2.1.inj) (hs.config i) (ht.config i) h
  | executedUnshieldCalls g => exact map_enc_inj (fun _ _ => num) (hs.executed g) (ht.executed g) h
  | latestConfirmation i => exact map_enc_inj (fun _ _ => (C116_shards w).2.2.inj) (hs.latest i) (ht.latest i) h
  | exchangeRate p o =>
    exact map_enc_inj (fun _ _ => num) (fun r hr => (hs.rates p o r hr).2.2) (fun r hr => (ht.rates p o r hr).2.2) h
  | oracleData n o =>
    refine map_enc_inj (P := fun b => Fits.vector b ∧ b.length ≤ m) (fun a b ha hb => ?_)
      (fun r hr => (hs.blobs n o r hr).2.2) (fun r hr => (ht.blobs n o r hr).2.2) h
    exact (exact_bounded (n := m) exact_byte).inj ((fits_blob a _).2 ha) ((fits_blob b _).2 hb)
  | whitelist o =>
    have fit : ∀ {u : Chain}, Fits.storage w m loc.fits u → Fits.vector (u.orc.whitelist o) := by
      intro u hu
      by_cases he : u.orc.whitelist o = []
      · rw [he]; simp [Fits.vector]
      · exact (hu.whitelist o he).2
    exact (exact_vec (exact_arr 32)).inj ((fits_hashes _).2 (fit hs)) ((fits_hashes _).2 (fit ht)) (Option.some.inj h)
  | claim a => exact map_enc_inj (fun _ _ => num) (hs.claims a) (ht.claims a) h
  | claimsTotal => exact num hs.total ht.total (Option.some.inj h)
  | vesting a => exact map_enc_inj (fun _ _ => (C116_claims w).1.inj) (hs.vesting a) (ht.vesting a) h
  | signing a =>
    exact map_enc_inj (fun _ _ => (C116_claims w).2.inj) (fun _ _ => trivial) (fun _ _ => trivial) h
  | preclaim a =>
    exact map_enc_inj (fun _ _ => (exact_arr 20).inj) (fun _ _ => trivial) (fun _ _ => trivial) h
  | assetIdLocation i =>
    exact map_enc_inj (fun _ _ => hloc.inj) (fun l hl => (hs.idLoc i l hl).2) (fun l hl => (ht.idLoc i l hl).2) h
  | assetLocationId l =>
    exact map_enc_inj (fun _ _ => num) (fun i hl => (hs.locId l i hl).1) (fun i hl => (ht.locId l i hl).1) h

/-- An entry whose key is out of range does not exist. -/
theorem same_of_not_fits {w : Widths} {loc : Codec Location} {m : Nat} {s t : Chain}
    (hs : Fits.storage w m loc.fits s) (ht : Fits.storage w m loc.fits t) (x : Slot) (hx : ¬ Fits.slot w loc.fits x) :
    x.same s t := by
  have none_of {α : Type} {y : Option α} (h : ∀ a, y = some a → False) : y = none := by
    cases y with
    | none => rfl
    | some a => exact (h a rfl).elim
  cases x with
  | proxiedEnclaves a =>
    exact (none_of fun e he => hx (hs.proxied a e he).1).trans (none_of fun e he => hx (ht.proxied a e he).1).symm
  | exchangeRate p o =>
    exact (none_of fun e he => hx ⟨(hs.rates p o e he).1, (hs.rates p o e he).2.1⟩).trans
      (none_of fun e he => hx ⟨(ht.rates p o e he).1, (ht.rates p o e he).2.1⟩).symm
  | oracleData p o =>
    exact (none_of fun e he => hx ⟨(hs.blobs p o e he).1, (hs.blobs p o e he).2.1⟩).trans
      (none_of fun e he => hx ⟨(ht.blobs p o e he).1, (ht.blobs p o e he).2.1⟩).symm
  | whitelist o =>
    have e : ∀ {u : Chain}, Fits.storage w m loc.fits u → u.orc.whitelist o = [] := fun {u} hu =>
      Decidable.byContradiction fun he => hx (hu.whitelist o he).1
    exact (e hs).trans (e ht).symm
  | assetIdLocation i =>
    exact (none_of fun e he => hx (hs.idLoc i e he).1).trans (none_of fun e he => hx (ht.idLoc i e he).1).symm
  | assetLocationId i =>
    exact (none_of fun e he => hx (hs.locId i e he).2).trans (none_of fun e he => hx (ht.locId i e he).2).symm
  | _ => exact absurd trivial hx

/-- **C127** Under one key there is one value. The hypotheses are met by the example with `mixedHistory` below. -/
theorem C127_one_value (w : Widths) (h : KeyHash) (names : Pallet → Bytes) (loc : Codec Location)
    (hloc : Faithful loc loc.enc loc.fits) (apart : NamesApart h names) (m : Nat) (s : Chain) (key v v' : Bytes)
    (h1 : Holds w h names loc m s key v) (h2 : Holds w h names loc m s key v') : v = v' := by
  obtain ⟨x, fx, kx, vx⟩ := h1
  obtain ⟨y, fy, ky, vy⟩ := h2
  have := C118_keys w h names loc hloc apart x y fx fy ⟨[], by rw [List.append_nil, kx, ky]⟩
  subst this
  rw [vx] at vy
  exact Option.some.inj vy

/-- **C127** Two states whose raw storage is the same, byte by byte under all keys, agree in every entry of every
pallet. All states reached from one in range are in range (C119). The hypotheses are met by the example with
`mixedHistory` below. -/
theorem C127_bytes_tell (w : Widths) (h : KeyHash) (names : Pallet → Bytes) (loc : Codec Location)
    (hloc : Faithful loc loc.enc loc.fits) (apart : NamesApart h names) (m : Nat) (s t : Chain)
    (hs : Fits.storage w m loc.fits s) (ht : Fits.storage w m loc.fits t)
    (hh : ∀ key v, Holds w h names loc m s key v ↔ Holds w h names loc m t key v) (x : Slot) : x.same s t := by
  by_cases fx : Fits.slot w loc.fits x
  · refine value_tells hloc hs ht x ?_
    have one : ∀ {u u' : Chain} {v : Bytes}, (∀ key v, Holds w h names loc m u key v → Holds w h names loc m u' key v) →
        x.value w loc m u = some v → x.value w loc m u' = some v := by
      intro u u' v hi hv
      obtain ⟨y, fy, ky, vy⟩ := hi (x.key w h names loc) v ⟨x, fx, rfl, hv⟩
      have := C118_keys w h names loc hloc apart y x fy fx ⟨[], by rw [List.append_nil, ky]⟩
      subst this
      exact vy
    cases h1 : x.value w loc m s with
    | some v => rw [one (fun k v => (hh k v).1) h1]
    | none =>
      cases h2 : x.value w loc m t with
      | none => rfl
      | some v => rw [one (fun k v => (hh k v).2) h2] at h1; simp at h1
  · exact same_of_not_fits hs ht x fx

/-- **C127** ... and the other way round: what changes the raw storage changes an entry. -/
theorem C127_entries_tell (w : Widths) (h : KeyHash) (names : Pallet → Bytes) (loc : Codec Location) (m : Nat)
    (s t : Chain) (hh : ∀ x : Slot, x.same s t) (key v : Bytes) :
    Holds w h names loc m s key v ↔ Holds w h names loc m t key v := by
  have : ∀ x : Slot, x.value w loc m s = x.value w loc m t := by
    intro x
    have := hh x
    cases x <;> simp only [Slot.same] at this <;> simp only [Slot.value, this]
  simp only [Holds, this]

/-- The state before and after a history with collateral, enclaves, a bond and a bridge transfer (`mixedHistory`):
the hypotheses are met; a bond of 40 since 5050 with 2000 tokentime is held as these 40 bytes under this key, and was
not before. -/
example : Faithful demoLoc demoLoc.enc demoLoc.fits ∧ NamesApart demoHash demoNames ∧
    Fits.storage demoWidths twoDocsCfg.maxBlob demoLoc.fits Demo.start ∧
    Fits.storage demoWidths twoDocsCfg.maxBlob demoLoc.fits (run twoDocsCfg Demo.start [.ext (.signed Demo.alice) (.bond 100)]) ∧
    Holds demoWidths demoHash demoNames demoLoc 4096 (run twoDocsCfg Demo.start mixedHistory)
      (asciiBytes "Teerdays" ++ List.replicate 8 0 ++ asciiBytes "TeerDayBonds" ++ List.replicate 4 0 ++
        List.replicate 16 0 ++ List.replicate 32 1)
      ([40] ++ List.replicate 15 0 ++ [186, 19] ++ List.replicate 6 0 ++ [208, 7] ++ List.replicate 14 0) ∧
    (Slot.teerDayBonds Demo.alice).value demoWidths demoLoc 4096 Demo.start = none := by
  refine ⟨demoLoc_faithful, demoApart, start_fits _, ?_, ⟨.teerDayBonds Demo.alice, True.intro, by decide +kernel,
    by decide +kernel⟩, rfl⟩
  refine C119_in_range (c := twoDocsCfg)
    ⟨by decide, by decide, by decide, by decide, by decide, by decide⟩ twoDocs_parsers (start_fits _) _ ?_
    (by decide +kernel) (by decide +kernel)
  intro op hop
  cases List.mem_singleton.mp hop
  simp only [Fits.op, Fits.call]
  decide

/-! ### C118 The part of each pallet -/

theorem key_of_pallet {w : Widths} {h : KeyHash} {names : Pallet → Bytes} {loc : Codec Location}
    (apart : NamesApart h names) (p : Pallet) (x : Slot) :
    (h.twox128 (names p)).val <+: x.key w h names loc ↔ x.pallet = p := by
  constructor
  · rintro ⟨r, hr⟩
    simp only [Slot.key, itemPrefix, List.append_assoc] at hr
    exact (apart.1 _ _ (append_arr hr).1).symm
  · rintro rfl
    refine ⟨(h.twox128 (asciiBytes x.item)).val ++ Slot.suffix w h loc x, ?_⟩
    simp only [Slot.key, itemPrefix, List.append_assoc]

theorem value_of_part (w : Widths) (loc : Codec Location) (m : Nat) {s t : Chain} (x : Slot)
    (hp : SamePart x.pallet s t) : x.value w loc m s = x.value w loc m t := by
  cases x <;> simp only [SamePart, Slot.pallet] at hp <;> simp only [Slot.value, hp]

/-- **C118** (pallets): the raw storage under the hashed name of a pallet holds what belongs to this pallet and nothing
else: it is the same in two states with the same state of the pallet, and what is not under this name is the same in
two states that differ in this pallet only. -/
theorem C118_pallets (w : Widths) (h : KeyHash) (names : Pallet → Bytes) (loc : Codec Location)
    (apart : NamesApart h names) (m : Nat) (s t : Chain) (p : Pallet) (key v : Bytes) :
    (SamePart p s t → (h.twox128 (names p)).val <+: key →
        (Holds w h names loc m s key v ↔ Holds w h names loc m t key v)) ∧
      ((∀ q, q ≠ p → SamePart q s t) → ¬ (h.twox128 (names p)).val <+: key →
        (Holds w h names loc m s key v ↔ Holds w h names loc m t key v)) := by
  refine ⟨fun hp hk => ?_, fun hq hk => ?_⟩
  · refine exists_congr fun x => and_congr_right fun _ => and_congr_right fun hx => ?_
    subst hx
    rw [value_of_part w loc m x ((key_of_pallet apart p x).1 hk ▸ hp)]
  · refine exists_congr fun x => and_congr_right fun _ => and_congr_right fun hx => ?_
    subst hx
    rw [value_of_part w loc m x (hq _ fun e => hk ((key_of_pallet apart p x).2 e))]

/-- A bond changes teerdays only among the parts with storage; its entry is under the name of teerdays. -/
example : NamesApart demoHash demoNames ∧
    (∀ q, q ≠ Pallet.teerdays →
      SamePart q Demo.start (run twoDocsCfg Demo.start [.ext (.signed Demo.alice) (.bond 100)])) ∧
    (Slot.teerDayBonds Demo.alice).value demoWidths demoLoc 4096
      (run twoDocsCfg Demo.start [.ext (.signed Demo.alice) (.bond 100)]) ≠ none ∧
    (demoHash.twox128 (demoNames .teerdays)).val <+:
      (Slot.teerDayBonds Demo.alice).key demoWidths demoHash demoNames demoLoc := by
  refine ⟨demoApart, fun q hq => ?_, by decide +kernel, (key_of_pallet demoApart _ _).2 rfl⟩
  cases q <;> first
    | exact absurd rfl hq
    | rfl

/-! ### C128 The size of entries -/

theorem le_length (n v : Nat) : ((le n).enc v).length = n := toLE_length n v

theorem arr_length {n : Nat} (a : Arr n) : ((arr n).enc a).length = n := a.property

theorem compact_length {v : Nat} (h : v < 2 ^ 30) : (compactEnc v).length ≤ 4 := by
  unfold compactEnc
  split
  · simp
  · split
    · simp
    · simp

theorem compact_length_two {v : Nat} (h : v < 2 ^ 14) : (compactEnc v).length ≤ 2 := by
  unfold compactEnc
  split
  · simp
  · simp

theorem compact_length_one {v : Nat} (h : v < 2 ^ 6) : (compactEnc v).length = 1 := by
  unfold compactEnc
  rw [if_pos h]; rfl

theorem flatMap_length {α : Type} (f : α → Bytes) (n : Nat) (l : List α) (h : ∀ x ∈ l, (f x).length = n) :
    (l.flatMap f).length = n * l.length := by
  induction l with
  | nil => rfl
  | cons x l ih =>
    rw [List.flatMap_cons, List.length_append, h x (by simp), ih fun y hy => h y (by simp [hy]), List.length_cons,
      Nat.mul_add]
    omega

theorem vec_length {α : Type} (a : Codec α) (n : Nat) (l : List α) (h : ∀ x ∈ l, (a.enc x).length = n) :
    ((vec a).enc l).length = (compactEnc l.length).length + n * l.length := by
  show (compactEnc l.length ++ l.flatMap a.enc).length = _
  rw [List.length_append, flatMap_length a.enc n l h]

theorem bytes_length (b : Bytes) : (bytes.enc b).length = (compactEnc b.length).length + b.length := by
  rw [show bytes = vec byte from rfl, vec_length byte 1 b fun _ _ => rfl, Nat.one_mul]

theorem enclave_length (e : SgxEnclave) (h : ∀ u, e.url = some u → u.length ≤ 256) :
    (multiEnclave.enc e).length ≤ 400 := by
  have hb : (buildMode.enc e.buildMode).length = 1 := by cases e.buildMode <;> rfl
  have hm : (attestationMethod.enc e.method).length ≤ 2 := by
    cases e.method with
    | skip p => exact Nat.le_refl _
    | ias => exact Nat.le_succ _
    | dcap p => exact Nat.le_refl _
  have hs : (sgxStatus.enc e.status).length = 1 := by cases e.status <;> rfl
  have hu : ((opt bytes).enc e.url).length ≤ 259 := by
    cases hu : e.url with
    | none => show 1 ≤ 259; omega
    | some u =>
      show (1 :: bytes.enc u).length ≤ 259
      rw [List.length_cons, bytes_length]
      have := h u hu
      have := compact_length_two (v := u.length) (by omega)
      omega
  show (0 :: ((arr 64).enc e.reportData ++ ((arr 32).enc e.mrEnclave ++ ((arr 32).enc e.mrSigner ++
    ((le 8).enc e.timestamp ++ ((opt bytes).enc e.url ++ (buildMode.enc e.buildMode ++
      (attestationMethod.enc e.method ++ sgxStatus.enc e.status)))))))).length ≤ 400
  simp only [List.length_cons, List.length_append, arr_length, le_length, hb, hs]
  omega

/-- The invariant: lists in the storage are short. -/
theorem short_run (c : Cfg) (s0 : Chain) (h0 : Short c s0) (ops : List Op) : Short c (run c s0 ops) := by
  refine run_invariant (fun s s' op hs hx => ?_) h0 ops
  refine ⟨fun a e u he hu => ?_, fun p e u he hu => ?_, fun i l hl => ?_, fun o => ?_, fun n o b hb => ?_⟩
  · rcases sovereign_effect hx a with h | ⟨_, _, _, e', _, _, h1, _, h2, _, _, _, _, h⟩ | ⟨_, _, _, _, _, h⟩
    · exact hs.sovereign a e u (h ▸ he) hu
    · rw [h] at he; cases he
      exact h2 u (h1 ▸ hu)
    · rw [h] at he; simp at he
  · rcases proxied_effect hx p with h | ⟨_, _, _, e', _, _, h1, _, h2, _, _, _, _, _, h⟩ | ⟨_, _, _, _, _, h⟩
    · exact hs.proxied p e u (h ▸ he) hu
    · rw [h] at he; cases he
      exact h2 u (h1 ▸ hu)
    · rw [h] at he; simp at he
  · rcases status_effect hx i with h | ⟨_, _, _, _, _, h, h1⟩ | ⟨a, l', _, h1, h⟩
    · exact hs.status i l (h ▸ hl)
    · rw [h] at hl; cases hl
      exact h1
    · rw [h] at hl; cases hl
      exact Nat.le_trans (List.length_filter_le _ _) (hs.status i l' h1)
  · rcases whitelist_effect hx o with h | ⟨fp, _, _, _, h2, h⟩ | ⟨fp, _, _, h⟩
    · rw [h]; exact hs.whitelist o
    · rw [h, List.length_append]; exact h2
    · rw [h]; exact Nat.le_trans (List.length_filter_le _ _) (hs.whitelist o)
  · rcases blobs_effect hx n o with h | ⟨_, b', _, _, _, _, h1, h⟩
    · exact hs.blobs n o b (h ▸ hb)
    · rw [h] at hb; cases hb
      exact h1

/-- **C128** Entries are not larger than `maxSize` after any history. Missing: the four items for which `maxSize`
gives nothing, see `C128_refuted`. -/
theorem C128_sizes_partial (w : Widths) (c : Cfg) (loc : Codec Location) (hb : c.maxBlob < 2 ^ 30)
    (hw : c.maxWhitelisted < 2 ^ 30) (s0 : Chain) (h0 : Short c s0) (ops : List Op) (x : Slot) (n : Nat) (v : Bytes)
    (hn : x.maxSize w c = some n) (hv : x.value w loc c.maxBlob (run c s0 ops) = some v) : v.length ≤ n := by
  have hs := short_run c s0 h0 ops
  generalize run c s0 ops = s at hs hv
  cases x <;> simp only [Slot.maxSize, Option.some.injEq, reduceCtorEq] at hn <;> subst hn <;>
    simp only [Slot.value, Option.map_eq_some_iff, Option.some.injEq] at hv
  case teerDayBonds a =>
    obtain ⟨b, _, rfl⟩ := hv
    simp only [teerDayBond, iso, pair, List.length_append, le_length]; omega
  case pendingUnlock a =>
    obtain ⟨b, _, rfl⟩ := hv
    simp only [Scale.pendingUnlock, pair, List.length_append, le_length]; omega
  case sovereignEnclaves a =>
    obtain ⟨e, he, rfl⟩ := hv
    exact enclave_length e fun u hu => hs.sovereign a e u he hu
  case proxiedEnclaves a =>
    obtain ⟨e, he, rfl⟩ := hv
    exact enclave_length e fun u hu => hs.proxied a e u he hu
  case allowDebug => subst hv; exact Nat.le_refl _
  case allowSkip => subst hv; exact Nat.le_refl _
  case shardStatus i =>
    obtain ⟨l, hl, rfl⟩ := hv
    have h1 := hs.status i l hl
    show ((vec (signerStatus w)).enc l).length ≤ _
    rw [vec_length (signerStatus w) (64 + w.block) l fun x _ => by
        simp only [signerStatus, iso, pair, List.length_append, le_length, arr_length]; omega,
      compact_length_one (by omega), Nat.mul_comm]
    have := Nat.mul_le_mul_right (64 + w.block) h1
    omega
  case executedUnshieldCalls h => obtain ⟨e, _, rfl⟩ := hv; exact Nat.le_of_eq (le_length _ _)
  case latestConfirmation i =>
    obtain ⟨e, _, rfl⟩ := hv
    simp only [Scale.confirmation, iso, pair, List.length_append, le_length, arr_length]; omega
  case exchangeRate p o => obtain ⟨e, _, rfl⟩ := hv; exact Nat.le_of_eq (le_length _ _)
  case oracleData n o =>
    obtain ⟨b, h1, rfl⟩ := hv
    have h1 := hs.blobs n o b h1
    show (bytes.enc b).length ≤ _
    rw [bytes_length]
    have := compact_length (v := b.length) (by omega)
    omega
  case whitelist o =>
    subst hv
    have h1 := hs.whitelist o
    rw [vec_length (arr 32) 32 _ fun x _ => arr_length x]
    have := compact_length (v := (s.orc.whitelist o).length) (by omega)
    omega
  case claim a => obtain ⟨e, _, rfl⟩ := hv; exact Nat.le_of_eq (le_length _ _)
  case claimsTotal => subst hv; exact Nat.le_of_eq (le_length _ _)
  case vesting a =>
    obtain ⟨e, _, rfl⟩ := hv
    simp only [vestingInfo, iso, pair, List.length_append, le_length]; omega
  case signing a =>
    obtain ⟨e, _, rfl⟩ := hv
    cases e <;> exact Nat.le_refl _
  case preclaim a => obtain ⟨e, _, rfl⟩ := hv; exact Nat.le_of_eq (arr_length _)
  case assetLocationId l => obtain ⟨e, _, rfl⟩ := hv; exact Nat.le_of_eq (le_length _ _)

theorem start_short (c : Cfg) : Short c Demo.start := by
  constructor <;> intros <;> first
    | contradiction
    | exact Nat.zero_le _

/-- The hypotheses hold; the entry of an enclave with a URL of 256 bytes takes all of the 400 bytes. -/
example : Demo.cfg.maxBlob < 2 ^ 30 ∧ Demo.cfg.maxWhitelisted < 2 ^ 30 ∧ Short Demo.cfg Demo.start ∧
    (Slot.sovereignEnclaves Demo.bob).maxSize demoWidths Demo.cfg = some 400 ∧
    ((Slot.sovereignEnclaves Demo.bob).value demoWidths demoLoc 4096 (run Demo.cfg Demo.start
      [.ext (.signed Demo.bob) (.registerSgxEnclave (Demo.bytes 32 7) (some (Demo.bytes 256 9)) (.skip false))])).map
      List.length = some 400 ∧
    ((Slot.shardStatus Demo.shard7).value demoWidths demoLoc 4096 (run Demo.cfg Demo.start Demo.bridgeHistory)).map
      List.length = some 137 ∧
    (Slot.shardStatus Demo.shard7).maxSize demoWidths Demo.cfg = some 681 := by
  exact ⟨by decide, by decide, start_short _, rfl, by decide +kernel, by decide +kernel, rfl⟩

/-- The full statement: for every runtime and every start there is a size no entry ever exceeds. -/
def C128_Full : Prop :=
  ∀ (w : Widths) (c : Cfg) (loc : Codec Location) (s0 : Chain), Short c s0 → ∃ n, ∀ ops (x : Slot) v,
    x.value w loc c.maxBlob (run c s0 ops) = some v → v.length ≤ n

/-- **C128** The full statement is false: the owner of any registered enclave can store a shard configuration with
any number of authorities. -/
theorem C128_refuted : ¬ C128_Full := by
  intro hf
  obtain ⟨n, hn⟩ := hf demoWidths Demo.cfg demoLoc Demo.start (start_short _)
  let big : ShardConfig := { Demo.config 7 with authorities := some (List.replicate (n + 1) Demo.bob) }
  have he : ((run Demo.cfg Demo.start [Demo.enroll Demo.alice 7]).tx.sovereign Demo.alice).isSome = true := by
    decide +kernel
  have hc : (run Demo.cfg Demo.start [Demo.enroll Demo.alice 7]).br.config Demo.shard7 = none := by decide +kernel
  have hs : (run Demo.cfg Demo.start [Demo.enroll Demo.alice 7]).br.status Demo.shard7 = none := by decide +kernel
  have hrun := run_snoc Demo.cfg Demo.start [Demo.enroll Demo.alice 7]
    (.ext (.signed Demo.alice) (.updateShardConfig Demo.shard7 big 0))
  generalize run Demo.cfg Demo.start [Demo.enroll Demo.alice 7] = s1 at *
  obtain ⟨e, he⟩ := Option.isSome_iff_exists.mp he
  have hx : exec Demo.cfg s1 (.ext (.signed Demo.alice) (.updateShardConfig Demo.shard7 big 0)) = .ok _ :=
    EnclaveBridge.updateShardConfig_ok.mpr (.inr ⟨Demo.alice, e, _, rfl, he, by
      simp [configInEffect, hc], rfl, by simp [EnclaveBridge.touched, hs, EnclaveBridge.touchList], rfl⟩)
  rw [step_of_ok hx] at hrun
  have := hn _ (.shardConfig Demo.shard7) _ (by rw [hrun]; simp only [Slot.value, upd_same]; rfl)
  have hl : ((opt (vec (arr 32))).enc big.authorities).length ≥ n + 1 := by
    show (1 :: (vec (arr 32)).enc (List.replicate (n + 1) Demo.bob)).length ≥ n + 1
    rw [List.length_cons, vec_length (arr 32) 32 _ fun x _ => arr_length x, List.length_replicate]
    omega
  have hnew : ∃ p u, EnclaveBridge.newConfig Demo.cfg s1 Demo.shard7 big 0 = ⟨big, p, u⟩ := by
    simp [EnclaveBridge.newConfig, configInEffect, hc]
  obtain ⟨p, u, hnew⟩ := hnew
  rw [hnew] at this
  simp only [upgradableShardConfig, Scale.shardConfig, iso, pair, List.length_append] at this
  omega

end Verif
