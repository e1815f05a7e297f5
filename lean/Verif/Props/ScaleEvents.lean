import Verif.Spec.ScaleEvents
import Verif.Props.ScaleXcm
import Verif.Props.News

/-!
# C139: the bytes of events
-/

namespace Verif
open Scale

namespace Scale

theorem exact_teerdaysEvent (w : Widths) : Exact (teerdaysEvent w) := by
  refine exact_enum ?_
  variants
  exact ⟨exact_pair (exact_arr _) (exact_le _), exact_pair (exact_arr _) (exact_pair (exact_le _) (exact_le _)),
    exact_pair (exact_arr _) (exact_teerDayBond w), exact_pair (exact_arr _) (exact_le _)⟩

theorem exact_teerexEvent : Exact teerexEvent := by
  refine exact_enum ?_
  variants
  exact ⟨exact_pair (exact_arr _) (exact_pair (exact_opt exact_bytes) (exact_pair (exact_opt exact_sgxStatus)
      exact_attestationMethod)), exact_arr _, exact_instanceAddress, exact_pair (exact_arr _) exact_tcbInfoOnChain,
    exact_quotingEnclave, exact_pair exact_bool exact_bool⟩

theorem exact_bridgeEvent (w : Widths) : Exact (bridgeEvent w) := by
  refine exact_enum ?_
  refine ⟨?_, ?_, ?_, ?_⟩
  · simp only [List.mem_cons, List.not_mem_nil, or_false, forall_eq_or_imp, forall_eq]
    exact ⟨exact_arr _, exact_pair (exact_arr _) (exact_pair exact_bytes (exact_le _)),
      exact_pair (exact_arr _) (exact_pair (exact_arr _) (exact_le _)),
      exact_pair (exact_arr _) (exact_pair (exact_arr _) (exact_pair (exact_arr _) (exact_le _))),
      exact_pair (exact_arr _) (exact_pair (exact_arr _) exact_bytes), exact_arr _, exact_pair (exact_arr _) (exact_arr _)⟩
  · simp only [List.mem_cons, List.not_mem_nil, or_false, forall_eq_or_imp, forall_eq]
    and_intros <;> (intro x; first | rfl | trivial)
  · simp only [List.mem_cons, List.not_mem_nil, or_false, forall_eq_or_imp, forall_eq]
    and_intros <;> (intro a x h; split at h <;> first | (cases h; rfl) | cases h)
  · simp only [List.pairwise_cons, List.mem_cons, List.not_mem_nil, or_false, forall_eq_or_imp, forall_eq,
      false_implies, implies_true, List.Pairwise.nil, and_true] <;> and_intros <;> first
      | decide
      | (intro a
         cases a <;> first
           | exact Or.inl rfl
           | exact Or.inr rfl)

theorem exact_sidechainEvent : Exact sidechainEvent := by
  refine exact_enum ⟨?_, ?_, ?_, List.pairwise_singleton _ _⟩ <;>
    simp only [List.mem_cons, List.not_mem_nil, or_false, forall_eq]
  · exact exact_pair (exact_arr _) (exact_pair (exact_le _) (exact_pair (exact_arr _) (exact_arr _)))
  · intro x; trivial
  · intro a x h; cases h; rfl

theorem exact_teeracleEvent : Exact teeracleEvent := by
  refine exact_enum ?_
  variants
  exact ⟨exact_pair exact_bytes (exact_pair exact_bytes (exact_le _)), exact_pair exact_bytes exact_bytes,
    exact_pair exact_bytes exact_bytes, exact_pair exact_bytes (exact_arr _), exact_pair exact_bytes (exact_arr _)⟩

theorem exact_claimsEvent (w : Widths) : Exact (claimsEvent w) := by
  refine exact_enum ⟨?_, ?_, ?_, List.pairwise_singleton _ _⟩ <;>
    simp only [List.mem_cons, List.not_mem_nil, or_false, forall_eq]
  · exact exact_pair (exact_arr _) (exact_pair (exact_arr _) (exact_le _))
  · intro x; trivial
  · intro a x h; cases h; rfl

theorem exact_assetRegistryEvent (w : Widths) {loc : Codec Location} (h : Exact loc) :
    Exact (assetRegistryEvent w loc) := by
  refine exact_enum ?_
  variants
  exact ⟨exact_pair (exact_le _) h, exact_pair (exact_le _) h⟩

theorem exact_xcmTransactorEvent : Exact xcmTransactorEvent := by
  refine exact_enum ?_
  variants
  exact ⟨exact_arr _, exact_pair (exact_le _) (exact_le _)⟩

theorem exact_runtimeEvent (w : Widths) {ix : PalletIndex} (hix : ix.Apart) {loc : Codec Location} (h : Exact loc) :
    Exact (runtimeEvent w ix loc) := by
  simp only [PalletIndex.Apart, List.nodup_cons, List.mem_cons, List.not_mem_nil, or_false, not_or, not_false_eq_true,
    List.nodup_nil, and_true] at hix
  refine exact_enum ⟨?_, ?_, ?_, ?_⟩
  · simp only [List.mem_cons, List.not_mem_nil, or_false, forall_eq_or_imp, forall_eq]
    exact ⟨exact_teerdaysEvent w, exact_teerexEvent, exact_bridgeEvent w, exact_sidechainEvent, exact_teeracleEvent,
      exact_claimsEvent w, exact_assetRegistryEvent w h, exact_xcmTransactorEvent⟩
  · simp only [List.mem_cons, List.not_mem_nil, or_false, forall_eq_or_imp, forall_eq]
    and_intros <;> (intro x; first | rfl | trivial)
  · simp only [List.mem_cons, List.not_mem_nil, or_false, forall_eq_or_imp, forall_eq]
    and_intros <;> (intro a x h; split at h <;> first | (cases h; rfl) | cases h)
  · simp only [List.pairwise_cons, List.mem_cons, List.not_mem_nil, or_false, forall_eq_or_imp, forall_eq,
      false_implies, implies_true, List.Pairwise.nil, and_true]
    simp only [hix, ne_eq, not_false_eq_true, true_and]
    and_intros <;> (intro a; cases a <;> first | exact Or.inl rfl | exact Or.inr rfl)

theorem exact_phase : Exact phase := by
  refine exact_enum ?_
  variants
  and_intros <;> exact_field

theorem exact_eventRecord (w : Widths) {ix : PalletIndex} (hix : ix.Apart) {loc : Codec Location} (h : Exact loc) :
    Exact (eventRecord w ix loc) :=
  exact_pair exact_phase (exact_pair (exact_runtimeEvent w hix h) (exact_vec (exact_arr _)))

end Scale

/-! ### Bytes and ranges -/

theorem fits_addr_option (o : Option SgxStatus) : (opt sgxStatus).fits o := by
  rw [fits_option]; exact fun x _ => fits_status x

theorem fits_bond (w : Widths) (b : Bond) : (teerDayBond w).fits b ↔ Fits.bond w b := by
  simp only [teerDayBond, iso, pair, fits_number, Fits.bond]

theorem fits_quotingEnclave (q : SgxQuotingEnclave) : Scale.quotingEnclave.fits q ↔ Fits.quotingEnclave q := by
  simp only [Scale.quotingEnclave, iso, pair, fits_number, Fits.quotingEnclave, vec]
  simp [arr, Fits.vector]

theorem fits_tcbInfo (t : SgxTcbInfoOnChain) : tcbInfoOnChain.fits t ↔ Fits.tcbInfo t := by
  simp only [tcbInfoOnChain, iso, pair, fits_number, Fits.tcbInfo, vec, tcbVersionStatus, fits_tcbStatus]
  simp [arr, Fits.vector]

/-- Ranges of the events of a pallet, case by case. -/
macro "event_fits" d:ident : tactic => `(tactic| (
  unfold $d
  simp only [fits_enum_cons, fits_enum_nil, Variant.fits, or_false, false_or, reduceCtorEq, false_and, exists_false,
    Option.some.injEq, exists_eq_left', pair, fits_number, fits_text, fits_option_text, fits_method, fits_addr_option,
    fits_bond, fits_address, fits_quotingEnclave, fits_tcbInfo, fits_arr, fits_unit, fits_bool, true_and, and_true,
    implies_true, exists_const, exists_eq', and_self, and_assoc, Fits.event]))

/-- Bytes of the events of a pallet, case by case. -/
macro "event_layout" d:ident : tactic => `(tactic|
  simp only [$d:ident, enum, List.findSome?, Variant.enc?, Option.map, Option.getD, pair, Layout.event,
    List.append_assoc, layout_le, layout_flag, layout_method, layout_arr, unit])

theorem td_event (w : Widths) (e : TdEvent) :
    ((teerdaysEvent w).fits e ↔ Fits.event w Fits.location (.td e)) ∧
      (Fits.event w Fits.location (.td e) → (teerdaysEvent w).enc e = Layout.event w Layout.location (.td e)) := by
  refine ⟨by cases e <;> event_fits teerdaysEvent, fun h => ?_⟩
  cases e <;> event_layout teerdaysEvent
  rw [(C116_teerdays w).1.1 _ h]

theorem tx_event (w : Widths) (e : TxEvent) :
    (teerexEvent.fits e ↔ Fits.event w Fits.location (.tx e)) ∧
      (Fits.event w Fits.location (.tx e) → teerexEvent.enc e = Layout.event w Layout.location (.tx e)) := by
  refine ⟨by cases e <;> event_fits teerexEvent, fun h => ?_⟩
  cases e <;> event_layout teerexEvent
  · rw [layout_bytesOption _ h, layout_optionOf _ _ layout_status]
  · rw [C116_teerex.2.1.1 _ h]
  · rw [C116_teerex.2.2.2.1 _ h]
  · rw [C116_teerex.2.2.1.1 _ h]

theorem br_event (w : Widths) (e : BrEvent) :
    ((bridgeEvent w).fits e ↔ (Event.br e).bare = .br e ∧ Fits.event w Fits.location (.br e)) ∧
      (Fits.event w Fits.location (.br e) → (Event.br e).bare = .br e →
        (bridgeEvent w).enc e = Layout.event w Layout.location (.br e)) := by
  refine ⟨?_, fun h hb => ?_⟩
  · cases e
    case publishedHash t f h d =>
      cases t <;> event_fits bridgeEvent <;> simp [Event.bare, Fits.vector]
    all_goals event_fits bridgeEvent <;> simp [Event.bare]
  · cases e
    case publishedHash t f h' d =>
      have : t = [] := by simpa [Event.bare, eq_comm] using hb
      subst this
      event_layout bridgeEvent
      rw [layout_text _ h.2]
    all_goals event_layout bridgeEvent
    rw [layout_text _ h.1]

theorem sc_event (w : Widths) (e : ScEvent) :
    (sidechainEvent.fits e ↔ Fits.event w Fits.location (.sc e)) ∧
      (Fits.event w Fits.location (.sc e) → sidechainEvent.enc e = Layout.event w Layout.location (.sc e)) := by
  refine ⟨by cases e <;> event_fits sidechainEvent, fun h => ?_⟩
  cases e <;> event_layout sidechainEvent

theorem or_event (w : Widths) (e : OrEvent) :
    (teeracleEvent.fits e ↔ Fits.event w Fits.location (.orc e)) ∧
      (Fits.event w Fits.location (.orc e) → teeracleEvent.enc e = Layout.event w Layout.location (.orc e)) := by
  refine ⟨by cases e <;> event_fits teeracleEvent, fun h => ?_⟩
  cases e <;> event_layout teeracleEvent
  · rw [layout_text _ h.1, layout_text _ h.2.1]
  · rw [layout_text _ h.1, layout_text _ h.2]
  · rw [layout_text _ h.1, layout_text _ h.2]
  · rw [layout_text _ h]
  · rw [layout_text _ h]

theorem cl_event (w : Widths) (e : ClEvent) :
    ((claimsEvent w).fits e ↔ Fits.event w Fits.location (.cl e)) ∧
      (Fits.event w Fits.location (.cl e) → (claimsEvent w).enc e = Layout.event w Layout.location (.cl e)) := by
  refine ⟨by cases e <;> event_fits claimsEvent, fun h => ?_⟩
  cases e <;> event_layout claimsEvent

theorem ar_event (w : Widths) (e : ArEvent) :
    ((assetRegistryEvent w location).fits e ↔ Fits.event w Fits.location (.ar e)) ∧
      (Fits.event w Fits.location (.ar e) → (assetRegistryEvent w location).enc e = Layout.event w Layout.location (.ar e)) := by
  refine ⟨by cases e <;> event_fits assetRegistryEvent <;> rw [fits_location], fun h => ?_⟩
  cases e <;> event_layout assetRegistryEvent <;> rw [C138_location.1 _ h.2]

theorem xt_event (w : Widths) (e : XtEvent) :
    (xcmTransactorEvent.fits e ↔ Fits.event w Fits.location (.xt e)) ∧
      (Fits.event w Fits.location (.xt e) → xcmTransactorEvent.enc e = Layout.event w Layout.location (.xt e)) := by
  refine ⟨by cases e <;> event_fits xcmTransactorEvent, fun h => ?_⟩
  cases e <;> event_layout xcmTransactorEvent

theorem layout_phase (p : Phase) : (phase.fits p ↔ Fits.phase p) ∧ phase.enc p = Layout.phase p := by
  refine ⟨by cases p <;> event_fits phase <;> simp only [Fits.phase], ?_⟩
  cases p <;> enum_layout phase <;> simp only [Layout.phase]

theorem runtime_event (w : Widths) (ix : PalletIndex) (e : Event) :
    ((runtimeEvent w ix location).fits e ↔ e.bare = e ∧ Fits.event w Fits.location e) ∧
      (e.bare = e → Fits.event w Fits.location e →
        (runtimeEvent w ix location).enc e = Layout.eventPallet ix e :: Layout.event w Layout.location e) := by
  constructor
  · unfold runtimeEvent
    cases e <;> simp only [fits_enum_cons, fits_enum_nil, Variant.fits, or_false, false_or, reduceCtorEq, false_and,
      exists_false, Option.some.injEq, exists_eq_left', (td_event w _).1, (tx_event w _).1, (br_event w _).1, (sc_event w _).1,
      (or_event w _).1, (cl_event w _).1, (ar_event w _).1, (xt_event w _).1]
    all_goals exact ⟨fun h => ⟨rfl, h⟩, fun h => h.2⟩
  · intro hb h
    unfold runtimeEvent
    cases e <;> simp only [enum, List.findSome?, Variant.enc?, Option.map, Option.getD, Layout.eventPallet]
    · rw [(td_event w _).2 h]
    · rw [(tx_event w _).2 h]
    · rw [(br_event w _).2 h hb]
    · rw [(sc_event w _).2 h]
    · rw [(or_event w _).2 h]
    · rw [(cl_event w _).2 h]
    · rw [(ar_event w _).2 h]
    · rw [(xt_event w _).2 h]

theorem bare_fits {w : Widths} {loc : Location → Prop} {e : Event} (h : Fits.event w loc e) : Fits.event w loc e.bare := by
  cases e with
  | br x => cases x with
    | publishedHash t f x d => exact ⟨by decide, h.2⟩
    | _ => exact h
  | _ => exact h

theorem bare_bare (e : Event) : e.bare.bare = e.bare := by
  cases e with
  | br x => cases x <;> rfl
  | _ => rfl

theorem bare_layout (w : Widths) (ix : PalletIndex) (loc : Location → Bytes) (e : Event) :
    Layout.event w loc e.bare = Layout.event w loc e ∧ Layout.eventPallet ix e.bare = Layout.eventPallet ix e := by
  cases e with
  | br x => cases x <;> exact ⟨rfl, rfl⟩
  | _ => exact ⟨rfl, rfl⟩

theorem topics_fits {w : Widths} {loc : Location → Prop} {e : Event} (h : Fits.event w loc e) : Fits.vector e.topics := by
  cases e with
  | br x => cases x with
    | publishedHash t f x d => exact h.1
    | _ => exact (by decide : Fits.vector ([] : List H256))
  | _ => exact (by decide : Fits.vector ([] : List H256))

theorem recordOf_inj {p q : Phase × Event} (h : recordOf p = recordOf q) : p = q := by
  obtain ⟨a, e⟩ := p
  obtain ⟨b, f⟩ := q
  simp only [recordOf, Prod.mk.injEq] at h
  obtain ⟨rfl, h1, h2⟩ := h
  congr 1
  have of : ∀ e : Event, e = match e.bare with
      | .br (.publishedHash _ a b c) => .br (.publishedHash e.topics a b c)
      | x => x := by
    intro e
    cases e with
    | br x => cases x <;> rfl
    | _ => rfl
  rw [of e, of f, h1, h2]

theorem record_facts (w : Widths) (ix : PalletIndex) (p : Phase × Event) (h1 : Fits.phase p.1)
    (h2 : Fits.event w Fits.location p.2) :
    (eventRecord w ix location).fits (recordOf p) ∧
      (eventRecord w ix location).enc (recordOf p) = Layout.record w ix Layout.location p := by
  refine ⟨⟨(layout_phase _).1.2 h1, (runtime_event w ix _).1.2 ⟨bare_bare _, bare_fits h2⟩, (fits_hashes _).2 (topics_fits h2)⟩,
    ?_⟩
  simp only [eventRecord, pair, recordOf, Layout.record, (layout_phase _).2,
    (runtime_event w ix _).2 (bare_bare _) (bare_fits h2), (bare_layout w ix _ _).1, (bare_layout w ix Layout.location _).2,
    layout_hashes _ (topics_fits h2), List.append_assoc, List.cons_append, List.nil_append]

/-! ### C139 -/

/-- C139 (one event): what a pallet announces is its index in the runtime, the number of the event and its fields;
reading it yields that event, and nothing else is read as an event of these pallets. -/
theorem C139_event (w : Widths) (ix : PalletIndex) (hix : ix.Apart) :
    Faithful (runtimeEvent w ix location) (fun e => Layout.eventPallet ix e :: Layout.event w Layout.location e)
      (fun e => e.topics = [] ∧ Fits.event w Fits.location e) := by
  have ht (e : Event) : e.bare = e ↔ e.topics = [] := by
    cases e with
    | br x => cases x <;> simp [Event.bare, Event.topics, eq_comm]
    | _ => simp [Event.bare, Event.topics]
  refine faithful_of (exact_runtimeEvent w hix exact_location) (fun e => ?_) fun e h => ?_
  · rw [(runtime_event w ix e).1, ht]
  · exact (runtime_event w ix e).2 ((ht e).2 h.1) h.2

/-- Indices of the pallets for the examples. -/
def demoIndex : PalletIndex := ⟨50, 51, 52, 53, 54, 55, 56, 57⟩

theorem demoIndex_apart : demoIndex.Apart := by unfold PalletIndex.Apart; decide +kernel

/-- A rate that an oracle announces, in full: pallet 54, event 0, source "x", pair "ab", rate 258. -/
example :
    let e : Event := .orc (.exchangeRateUpdated [120] [97, 98] 258)
    e.topics = [] ∧ Fits.event demoWidths Fits.location e ∧
      Layout.eventPallet demoIndex e :: Layout.event demoWidths Layout.location e =
        [54, 0, 4, 120, 8, 97, 98, 2, 1, 0, 0, 0, 0, 0, 0] := by
  refine ⟨rfl, ⟨by decide, by decide, by decide⟩, by decide +kernel⟩

/-- C139 (the log of a block): the bytes of the list of the events of a block, with their topics, are as written down;
reading them yields that list; two different lists have different bytes. -/
theorem C139_log (w : Widths) (ix : PalletIndex) (hix : ix.Apart) (log : List (Phase × Event)) (hl : Fits.vector log)
    (h : ∀ p ∈ log, Fits.phase p.1 ∧ Fits.event w Fits.location p.2) :
    eventLog w ix location log = Layout.list (Layout.record w ix Layout.location) log ∧
    (∀ rest, (vec (eventRecord w ix location)).dec (eventLog w ix location log ++ rest) = some (log.map recordOf, rest)) ∧
    ∀ log', Fits.vector log' → (∀ p ∈ log', Fits.phase p.1 ∧ Fits.event w Fits.location p.2) →
      eventLog w ix location log' = eventLog w ix location log → log' = log := by
  have e := exact_vec (exact_eventRecord w hix exact_location)
  have ok {log : List (Phase × Event)} (hl : Fits.vector log)
      (h : ∀ p ∈ log, Fits.phase p.1 ∧ Fits.event w Fits.location p.2) :
      (vec (eventRecord w ix location)).fits (log.map recordOf) := by
    refine ⟨by rw [List.length_map]; exact hl, fun x hx => ?_⟩
    obtain ⟨p, hp, rfl⟩ := List.mem_map.1 hx
    exact (record_facts w ix p (h p hp).1 (h p hp).2).1
  refine ⟨?_, fun rest => e.read _ rest (ok hl h), fun log' hl' h' heq => ?_⟩
  · simp only [eventLog]
    rw [layout_list (eventRecord w ix location) (eventRecord w ix location).enc (log.map recordOf)
      (by rw [Fits.vector, List.length_map]; exact hl) fun _ _ => rfl]
    simp only [Layout.list, List.length_map, List.map_map]
    rw [List.map_congr_left (f := (eventRecord w ix location).enc ∘ recordOf) (g := Layout.record w ix Layout.location) fun p hp =>
      (record_facts w ix p (h p hp).1 (h p hp).2).2]
  · have h1 := e.read _ [] (ok hl h)
    have h2 := e.read _ [] (ok hl' h')
    simp only [eventLog] at heq
    rw [heq, h1] at h2
    simp only [Option.some.injEq, Prod.mk.injEq, and_true] at h2
    exact (List.map_inj_right fun _ _ => recordOf_inj).1 h2.symm

/-- The events of a block: of the third extrinsic, a published hash with one topic; then a bond. -/
example :
    let log : List (Phase × Event) :=
      [(.applyExtrinsic 2, .br (.publishedHash [Demo.hash1] Demo.hash2 Demo.hash1 [7])),
        (.applyExtrinsic 3, .td (.bonded Demo.alice 100))]
    Fits.vector log ∧ (∀ p ∈ log, Fits.phase p.1 ∧ Fits.event demoWidths Fits.location p.2) ∧
      (Layout.list (Layout.record demoWidths demoIndex Layout.location) log).take 7 = [8, 0, 2, 0, 0, 0, 52] := by
  refine ⟨by decide, ?_, by decide +kernel⟩
  intro p hp
  simp only [List.mem_cons, List.not_mem_nil, or_false] at hp
  rcases hp with rfl | rfl
  · exact ⟨show 2 < _ by decide, by decide, by decide⟩
  · exact ⟨show 3 < _ by decide, show 100 < _ by decide⟩

theorem update_fits {c : Cfg} {w : Widths} {loc : Location → Prop} {s : Chain} (hc : Fits.Config w c)
    (hn : Fits.number w.moment s.now) (hs : Fits.storage w c.maxBlob loc s) {a : AccountId} {b : Bond}
    (hb : s.td.bonds a = some b) : Fits.bond w (b.update c.balMax s.now) :=
  ⟨(hs.bonds a b hb).1, hn, satAdd_fits hc.bal⟩

theorem announced_cases {c : Cfg} {w : Widths} {loc : Location → Prop} {s s' : Chain} {op : Op} (hc : Fits.Config w c)
    (hn : Fits.number w.moment s.now) (hq : Fits.op w c.maxBlob loc op) (hs : Fits.storage w c.maxBlob loc s)
    (hs' : Fits.storage w c.maxBlob loc s') (h : exec c s op = .ok s') (e : Event) (he : Announced s' e) :
    Announced s e ∨ Fits.event w loc e := by
  have added (n : News) (hn : n.Added s s') (h1 : ∀ x ∈ n.td, Fits.event w loc (.td x))
      (h2 : ∀ x ∈ n.tx, Fits.event w loc (.tx x)) (h3 : ∀ x ∈ n.br, Fits.event w loc (.br x))
      (h4 : ∀ x ∈ n.sc, Fits.event w loc (.sc x)) (h5 : ∀ x ∈ n.orc, Fits.event w loc (.orc x))
      (h6 : ∀ x ∈ n.cl, Fits.event w loc (.cl x)) (h7 : ∀ x ∈ n.ar, Fits.event w loc (.ar x))
      (h8 : ∀ x ∈ n.xt, Fits.event w loc (.xt x)) : Announced s e ∨ Fits.event w loc e := by
    cases e with
    | td x => exact (List.mem_append.1 (hn.td ▸ he : x ∈ n.td ++ s.td.events)).symm.imp id (h1 x)
    | tx x => exact (List.mem_append.1 (hn.tx ▸ he : x ∈ n.tx ++ s.tx.events)).symm.imp id (h2 x)
    | br x => exact (List.mem_append.1 (hn.br ▸ he : x ∈ n.br ++ s.br.events)).symm.imp id (h3 x)
    | sc x => exact (List.mem_append.1 (hn.sc ▸ he : x ∈ n.sc ++ s.sc.events)).symm.imp id (h4 x)
    | orc x => exact (List.mem_append.1 (hn.orc ▸ he : x ∈ n.orc ++ s.orc.events)).symm.imp id (h5 x)
    | cl x => exact (List.mem_append.1 (hn.cl ▸ he : x ∈ n.cl ++ s.cl.events)).symm.imp id (h6 x)
    | ar x => exact (List.mem_append.1 (hn.ar ▸ he : x ∈ n.ar ++ s.ar.events)).symm.imp id (h7 x)
    | xt x => exact (List.mem_append.1 (hn.xt ▸ he : x ∈ n.xt ++ s.xt.events)).symm.imp id (h8 x)
  rcases Classical.em (∃ o k, op = .ext o k) with ⟨o, k, rfl⟩ | hext
  rotate_left
  · exact added {} (C122_silence c s s' op (fun o k hop => hext ⟨o, k, hop⟩) h) (by simp) (by simp) (by simp) (by simp)
      (by simp) (by simp) (by simp) (by simp)
  cases k
  case unbond v =>
    obtain ⟨a, b, _, ho, _, _, hb, _, rfl⟩ := Teerdays.unbond_ok.mp h
    have hu := update_fits hc hn hs hb
    cases e <;> first | exact .inl he | skip
    simp only [Announced, List.mem_cons] at he
    rcases he with rfl | rfl | he
    · exact .inr ⟨hu.1.mono (Nat.sub_le _ _), hu.2.2.mono (Nat.sub_le _ _)⟩
    · exact .inr hu
    · exact .inl he
  case withdrawUnbonded =>
    obtain ⟨a, due, amount, ho, hp, _, rfl⟩ := Teerdays.withdrawUnbonded_ok.mp h
    cases e <;> first | exact .inl he | skip
    simp only [Announced, List.mem_cons] at he
    rcases he with rfl | he
    · exact .inr ((hs.pending a _ hp).2.mono (Nat.min_le_left _ _))
    · exact .inl he
  case bondExtra v =>
    obtain ⟨a, b, ho, _, _, hb, rfl⟩ := Teerdays.bondExtra_ok.mp h
    have hu := update_fits hc hn hs hb
    cases e <;> first | exact .inl he | skip
    simp only [Announced, List.mem_cons] at he
    rcases he with rfl | rfl | he
    · exact .inr (Fits.number.mono hq (Nat.min_le_left _ _))
    · exact .inr hu
    · exact .inl he
  case updateOther v =>
    obtain ⟨_, b, _, hb, rfl⟩ := Teerdays.updateOther_ok.mp h
    have hu := update_fits hc hn hs hb
    cases e <;> first | exact .inl he | skip
    simp only [Announced, List.mem_cons] at he
    rcases he with rfl | he
    · exact .inr hu
    · exact .inl he
  case publishHash x t d =>
    obtain ⟨a, e', l, ho, _, _, _, ht, hd, rfl⟩ := EnclaveBridge.publishHash_ok.mp h
    cases e <;> first | exact .inl he | skip
    simp only [Announced, List.mem_cons] at he
    rcases he with rfl | he
    · refine .inr ⟨?_, hq.2⟩
      simp only [Fits.vector, List.length_append, List.length_cons, List.length_nil]
      omega
    · exact .inl he
  case claims k =>
    obtain ⟨n, ha, hadd⟩ := C122_news c s s' o _ h
    cases k <;> simp only [Announces] at ha
    case claim =>
      obtain ⟨g, v, _, ⟨hv, _⟩, rfl⟩ := ha
      exact added _ hadd (by simp) (by simp) (by simp) (by simp) (by simp)
        (by simp only [List.mem_cons, List.not_mem_nil, or_false, forall_eq]; exact hs.claims _ _ hv) (by simp) (by simp)
    case claimAttest =>
      obtain ⟨g, v, _, ⟨hv, _⟩, rfl⟩ := ha
      exact added _ hadd (by simp) (by simp) (by simp) (by simp) (by simp)
        (by simp only [List.mem_cons, List.not_mem_nil, or_false, forall_eq]; exact hs.claims _ _ hv) (by simp) (by simp)
    case attest =>
      obtain ⟨a, g, v, _, _, ⟨hv, _⟩, rfl⟩ := ha
      exact added _ hadd (by simp) (by simp) (by simp) (by simp) (by simp)
        (by simp only [List.mem_cons, List.not_mem_nil, or_false, forall_eq]; exact hs.claims _ _ hv) (by simp) (by simp)
    all_goals
      subst ha
      exact added _ hadd (by simp) (by simp) (by simp) (by simp) (by simp) (by simp) (by simp) (by simp)
  all_goals
    obtain ⟨n, ha, hadd⟩ := C122_news c s s' o _ h
    simp only [Announces] at ha
    simp only [Fits.op, Fits.call] at hq
  case bond v =>
    obtain ⟨a, _, rfl⟩ := ha
    exact added _ hadd (by simp only [List.mem_cons, List.not_mem_nil, or_false, forall_eq]
                           exact Fits.number.mono hq (Nat.min_le_left _ _))
      (by simp) (by simp) (by simp) (by simp) (by simp) (by simp) (by simp)
  case registerSgxEnclave p u m =>
    obtain ⟨a, e', _, _, _, _, _, rfl⟩ := ha
    exact added _ hadd (by simp) (by simp only [List.mem_cons, List.not_mem_nil, or_false, forall_eq]; exact hq.2)
      (by simp) (by simp) (by simp) (by simp) (by simp) (by simp)
  case registerTcbInfo =>
    obtain ⟨f, t, _, ht, rfl⟩ := ha
    exact added _ hadd (by simp) (by simp only [List.mem_cons, List.not_mem_nil, or_false, forall_eq]; exact hs'.tcbInfo f t ht)
      (by simp) (by simp) (by simp) (by simp) (by simp) (by simp)
  case unshieldFunds =>
    rcases ha with ⟨_, rfl⟩ | ⟨_, rfl⟩
    · exact added _ hadd (by simp) (by simp) (by simp only [List.mem_cons, List.not_mem_nil, or_false, forall_eq]; exact hq)
        (by simp) (by simp) (by simp) (by simp) (by simp)
    · exact added _ hadd (by simp) (by simp) (by simp) (by simp) (by simp) (by simp) (by simp) (by simp)
  case confirmImportedSidechainBlock =>
    rcases ha with ⟨a, _, ⟨_, rfl⟩ | ⟨_, rfl⟩⟩
    · exact added _ hadd (by simp) (by simp) (by simp)
        (by simp only [List.mem_cons, List.not_mem_nil, or_false, forall_eq]; exact hq.2)
        (by simp) (by simp) (by simp) (by simp)
    · exact added _ hadd (by simp) (by simp) (by simp) (by simp) (by simp) (by simp) (by simp) (by simp)
  case updateExchangeRate =>
    rcases ha with ⟨r, hr, _, rfl⟩ | ⟨_, rfl⟩
    · exact added _ hadd (by simp) (by simp) (by simp) (by simp)
        (by simp only [List.mem_cons, List.not_mem_nil, or_false, forall_eq]; exact ⟨hq.1, hq.2.1, hq.2.2 r hr⟩)
        (by simp) (by simp) (by simp)
    · exact added _ hadd (by simp) (by simp) (by simp) (by simp)
        (by simp only [List.mem_cons, List.not_mem_nil, or_false, forall_eq]; exact ⟨hq.1, hq.2.1⟩)
        (by simp) (by simp) (by simp)
  case unregisterReserveAsset i =>
    obtain ⟨l, hl, rfl⟩ := ha
    exact added _ hadd (by simp) (by simp) (by simp) (by simp) (by simp) (by simp)
      (by simp only [List.mem_cons, List.not_mem_nil, or_false, forall_eq]; exact hs.idLoc i l hl) (by simp)
  case sendSwapUmp =>
    obtain ⟨x, _, rfl⟩ := ha
    exact added _ hadd (by simp) (by simp) (by simp) (by simp) (by simp) (by simp) (by simp)
      (by simp only [List.mem_cons, List.not_mem_nil, or_false, forall_eq_or_imp, forall_eq]
          exact ⟨⟨hq.1, hq.2.1⟩, True.intro⟩)
  case' registerQuotingEnclave => replace ha := ha.2
  all_goals subst ha
  case balTransfer => exact added _ hadd (by simp) (by simp) (by simp) (by simp) (by simp) (by simp) (by simp) (by simp)
  all_goals
    refine added _ hadd ?_ ?_ ?_ ?_ ?_ ?_ ?_ ?_ <;>
      simp only [List.mem_cons, List.not_mem_nil, or_false, forall_eq, false_implies, implies_true, Fits.event] <;>
      first
        | exact hq
        | exact hs'.quotingEnclave
        | exact ⟨hq.1, hq.2.1⟩

/-- C139 (range): in every history whose calls have been read from bytes, as long as the clock and the block number are
in range, the fields of every event that any pallet announces are in range. The hypotheses are met by the example below.
-/
theorem C139_in_range {c : Cfg} {w : Widths} {loc : Location → Prop} (hc : Fits.Config w c) (hx : Fits.Parsers c.ext)
    {s : Chain} (hs : Fits.storage w c.maxBlob loc s) (h0 : ∀ e, Announced s e → Fits.event w loc e) (ops : List Op)
    (hq : ∀ op ∈ ops, Fits.op w c.maxBlob loc op) (hn : Fits.number w.moment (run c s ops).now)
    (hb : Fits.number w.block (run c s ops).block) : ∀ e, Announced (run c s ops) e → Fits.event w loc e := by
  refine (run_invariant' (Q := Fits.op w c.maxBlob loc)
    (P := fun t => Fits.number w.moment t.now → Fits.number w.block t.block →
      Fits.storage w c.maxBlob loc t ∧ ∀ e, Announced t e → Fits.event w loc e)
    (fun t t' op hq ih hx' hn hb => ?_) (fun _ _ => ⟨hs, h0⟩) ops hq hn hb).2
  have hn' := hn.mono (exec_now_le hx')
  have hb' := hb.mono (exec_block_le hx')
  obtain ⟨hs, he⟩ := ih hn' hb'
  have hs' := storage_fits hc hx hn' hb' hq hs hx'
  exact ⟨hs', fun e h => (announced_cases hc hn' hq hs hs' hx' e h).elim (he e) id⟩

/-- C139 (histories): however the events announced in such a history are arranged into the event log of a block, the
bytes of the log are as written down and only that log has these bytes. -/
theorem C139_history {c : Cfg} {w : Widths} (hc : Fits.Config w c) (hx : Fits.Parsers c.ext)
    {s : Chain} (hs : Fits.storage w c.maxBlob Fits.location s)
    (h0 : ∀ e, Announced s e → Fits.event w Fits.location e) (ops : List Op)
    (hq : ∀ op ∈ ops, Fits.op w c.maxBlob Fits.location op) (hn : Fits.number w.moment (run c s ops).now)
    (hb : Fits.number w.block (run c s ops).block) (ix : PalletIndex) (hix : ix.Apart) (log : List (Phase × Event))
    (hl : Fits.vector log) (h : ∀ p ∈ log, Fits.phase p.1 ∧ Announced (run c s ops) p.2) :
    eventLog w ix location log = Layout.list (Layout.record w ix Layout.location) log ∧
    ∀ log', Fits.vector log' → (∀ p ∈ log', Fits.phase p.1 ∧ Announced (run c s ops) p.2) →
      eventLog w ix location log' = eventLog w ix location log → log' = log := by
  have f := C139_in_range hc hx hs h0 ops hq hn hb
  obtain ⟨h1, _, h3⟩ := C139_log w ix hix log hl fun p hp => ⟨(h p hp).1, f _ (h p hp).2⟩
  exact ⟨h1, fun log' hl' h' => h3 log' hl' fun p hp => ⟨(h' p hp).1, f _ (h' p hp).2⟩⟩

theorem start_silent (e : Event) : ¬ Announced Demo.start e := by
  cases e <;> exact List.not_mem_nil

/-- The hypotheses of both theorems hold of a history that announces enclaves, collateral, a bond and bridge traffic. -/
example : Fits.Config demoWidths twoDocsCfg ∧ Fits.Parsers twoDocsCfg.ext ∧
    Fits.storage demoWidths twoDocsCfg.maxBlob Fits.location Demo.start ∧
    (∀ e, Announced Demo.start e → Fits.event demoWidths Fits.location e) ∧
    (∀ op ∈ mixedHistory, Fits.op demoWidths twoDocsCfg.maxBlob Fits.location op) ∧
    Fits.number demoWidths.moment (run twoDocsCfg Demo.start mixedHistory).now ∧
    Fits.number demoWidths.block (run twoDocsCfg Demo.start mixedHistory).block ∧
    Announced (run twoDocsCfg Demo.start mixedHistory) (.td (.bonded Demo.alice 100)) ∧
    (run twoDocsCfg Demo.start mixedHistory).td.events.length = 3 ∧
    (run twoDocsCfg Demo.start mixedHistory).tx.events.length ≥ 3 ∧
    (run twoDocsCfg Demo.start mixedHistory).br.events.length ≥ 2 := by
  refine ⟨⟨by decide, by decide, by decide, by decide, by decide, by decide⟩, twoDocs_parsers, start_fits _,
    fun e h => absurd h (start_silent e), mixed_fits _, by decide +kernel, by decide +kernel, ?_, by decide +kernel,
    by decide +kernel, by decide +kernel⟩
  show _ ∈ (run twoDocsCfg Demo.start mixedHistory).td.events
  decide +kernel

end Verif
