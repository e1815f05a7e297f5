import Verif.Proofs.BridgeInv
import Verif.Spec.Teeracle
import Verif.Spec.DemoBridge

/-!
# Properties of teeracle: C43 - C46
-/

namespace Verif

open Demo Teeracle

/-- Effect of any operation on a whitelist. -/
theorem whitelist_effect {c : Cfg} {s s' : Chain} {op : Op} (h : exec c s op = .ok s') (src : Bytes) :
    s'.orc.whitelist src = s.orc.whitelist src ∨
    (∃ fp, op = .ext .root (.addToWhitelist src fp) ∧ src.length ≤ 40 ∧ fp ∉ s.orc.whitelist src ∧
      (s.orc.whitelist src).length < c.maxWhitelisted ∧ s'.orc.whitelist src = s.orc.whitelist src ++ [fp]) ∨
    (∃ fp, op = .ext .root (.removeFromWhitelist src fp) ∧ fp ∈ s.orc.whitelist src ∧
      s'.orc.whitelist src = (s.orc.whitelist src).filter fun m => m ≠ fp) := by
  by_cases hp : Part.teeracle ∈ op.parts
  · cases op with
    | ext o k =>
      cases k with
      | addToWhitelist src' fp =>
        obtain ⟨rfl, h1, h2, h3, rfl⟩ := addToWhitelist_ok.mp h
        by_cases hs : src' = src
        · subst hs; exact .inr (.inl ⟨fp, rfl, h1, h2, h3, by simp⟩)
        · exact .inl (by simp [Ne.symm hs])
      | removeFromWhitelist src' fp =>
        obtain ⟨rfl, h1, rfl⟩ := removeFromWhitelist_ok.mp h
        by_cases hs : src' = src
        · subst hs; exact .inr (.inr ⟨fp, rfl, h1, by simp⟩)
        · exact .inl (by simp [Ne.symm hs])
      | updateOracle n src' b =>
        obtain ⟨_, _, _, _, _, _, _, _, rfl⟩ := updateOracle_ok.mp h; exact .inl rfl
      | updateExchangeRate src' p r =>
        obtain ⟨_, _, _, _, _, _, rfl⟩ := updateExchangeRate_ok.mp h; exact .inl rfl
      | claims k => cases k <;> simp [Op.parts, Call.parts] at hp
      | _ => simp [Op.parts, Call.parts] at hp
    | _ => simp [Op.parts] at hp
  · have ho : s'.orc = s.orc := exec_frame h .teeracle hp
    exact .inl (by rw [ho])

/-- Effect of any operation on an exchange rate. -/
theorem rates_effect {c : Cfg} {s s' : Chain} {op : Op} (h : exec c s op = .ok s') (pair src : Bytes) :
    s'.orc.rates pair src = s.orc.rates pair src ∨
    (∃ a r, op = .ext (.signed a) (.updateExchangeRate src pair r) ∧ OracleFor s src a ∧ pair.length ≤ 11 ∧
      s'.orc.rates pair src = storedRate r) := by
  by_cases hp : Part.teeracle ∈ op.parts
  · cases op with
    | ext o k =>
      cases k with
      | addToWhitelist src' fp => obtain ⟨rfl, h1, h2, h3, rfl⟩ := addToWhitelist_ok.mp h; exact .inl rfl
      | removeFromWhitelist src' fp => obtain ⟨rfl, h1, rfl⟩ := removeFromWhitelist_ok.mp h; exact .inl rfl
      | updateOracle n src' b =>
        obtain ⟨_, _, _, _, _, _, _, _, rfl⟩ := updateOracle_ok.mp h; exact .inl rfl
      | updateExchangeRate src' p r =>
        obtain ⟨a, e, rfl, h1, h2, h3, rfl⟩ := updateExchangeRate_ok.mp h
        by_cases hs : p = pair
        · subst hs
          by_cases hs : src' = src
          · subst hs; exact .inr ⟨a, r, rfl, ⟨e, h1, h3⟩, h2, by simp⟩
          · exact .inl (by simp [Ne.symm hs])
        · exact .inl (by simp [Ne.symm hs])
      | claims k => cases k <;> simp [Op.parts, Call.parts] at hp
      | _ => simp [Op.parts, Call.parts] at hp
    | _ => simp [Op.parts] at hp
  · have ho : s'.orc = s.orc := exec_frame h .teeracle hp
    exact .inl (by rw [ho])

/-- Effect of any operation on a blob. -/
theorem blobs_effect {c : Cfg} {s s' : Chain} {op : Op} (h : exec c s op = .ok s') (name src : Bytes) :
    s'.orc.blobs name src = s.orc.blobs name src ∨
    (∃ a b, op = .ext (.signed a) (.updateOracle name src b) ∧ OracleFor s src a ∧ name.length ≤ 40 ∧
      src.length ≤ 40 ∧ b.length ≤ c.maxBlob ∧ s'.orc.blobs name src = some b) := by
  by_cases hp : Part.teeracle ∈ op.parts
  · cases op with
    | ext o k =>
      cases k with
      | addToWhitelist src' fp => obtain ⟨rfl, h1, h2, h3, rfl⟩ := addToWhitelist_ok.mp h; exact .inl rfl
      | removeFromWhitelist src' fp => obtain ⟨rfl, h1, rfl⟩ := removeFromWhitelist_ok.mp h; exact .inl rfl
      | updateOracle n src' b =>
        obtain ⟨a, e, rfl, h1, h2, h3, h4, h5, rfl⟩ := updateOracle_ok.mp h
        by_cases hs : n = name
        · subst hs
          by_cases hs : src' = src
          · subst hs; exact .inr ⟨a, b, rfl, ⟨e, h1, h2⟩, h3, h4, h5, by simp⟩
          · exact .inl (by simp [Ne.symm hs])
        · exact .inl (by simp [Ne.symm hs])
      | updateExchangeRate src' p r =>
        obtain ⟨_, _, _, _, _, _, rfl⟩ := updateExchangeRate_ok.mp h; exact .inl rfl
      | claims k => cases k <;> simp [Op.parts, Call.parts] at hp
      | _ => simp [Op.parts, Call.parts] at hp
    | _ => simp [Op.parts] at hp
  · have ho : s'.orc = s.orc := exec_frame h .teeracle hp
    exact .inl (by rw [ho])

/-- A source. -/
def demoSource : Bytes := [99, 111, 105, 110]
/-- A trading pair. -/
def demoPair : Bytes := [68, 79, 84, 47, 85, 83, 68]

/-- Alice's code is whitelisted for a source and she sets a rate and a blob; Bob's code is not. -/
def oracleHistory : List Op :=
  [enroll alice 7, enroll bob 8, .ext .root (.addToWhitelist demoSource (Arr.fill 32 7)),
   .ext .root (.addToWhitelist demoSource (Arr.fill 32 7)),
   .ext (.signed alice) (.updateExchangeRate demoSource demoPair (some 43)),
   .ext (.signed bob) (.updateExchangeRate demoSource demoPair (some 44)),
   .ext (.signed alice) (.updateOracle [1] demoSource [1, 2, 3])]

theorem demo_freshOracle : FreshOracle start := ⟨fun _ => rfl, fun _ _ => rfl, fun _ _ => rfl⟩

/-! ### C43 Oracle whitelists are duplicate free, bounded and root controlled -/

/-- C43: no duplicates, at most the configured number of entries. -/
theorem C43_whitelist_ok (c : Cfg) (s0 : Chain) (ops : List Op) (h0 : FreshOracle s0) (src : Bytes) :
    ((run c s0 ops).orc.whitelist src).Nodup ∧ ((run c s0 ops).orc.whitelist src).length ≤ c.maxWhitelisted := by
  refine run_invariant (c := c) (P := fun s => (s.orc.whitelist src).Nodup ∧
    (s.orc.whitelist src).length ≤ c.maxWhitelisted) ?_ ?_ ops
  · rintro s s' op ⟨ih1, ih2⟩ hx
    rcases whitelist_effect hx src with h | ⟨fp, _, _, h1, h2, h⟩ | ⟨fp, _, _, h⟩
    · rw [h]; exact ⟨ih1, ih2⟩
    · rw [h]
      refine ⟨List.nodup_append.mpr ⟨ih1, by simp, ?_⟩, by
        simp only [List.length_append, List.length_singleton]; omega⟩
      intro x hx y hy
      simp only [List.mem_singleton] at hy
      subst hy
      exact fun he => h1 (he ▸ hx)
    · rw [h]
      exact ⟨ih1.filter _, Nat.le_trans (List.length_filter_le _ _) ih2⟩
  · simp [h0.1 src]

example : ((run cfg start oracleHistory).orc.whitelist demoSource).Nodup ∧
    ((run cfg start oracleHistory).orc.whitelist demoSource).length ≤ cfg.maxWhitelisted :=
  C43_whitelist_ok cfg start oracleHistory demo_freshOracle demoSource

/-- C43: a whitelist changes only by root adding a new entry at the end or root removing an entry. -/
theorem C43_root_only (c : Cfg) (s s' : Chain) (op : Op) (src : Bytes) (h : exec c s op = .ok s')
    (hch : s'.orc.whitelist src ≠ s.orc.whitelist src) :
    (∃ fp, op = .ext .root (.addToWhitelist src fp) ∧ fp ∉ s.orc.whitelist src ∧
      s'.orc.whitelist src = s.orc.whitelist src ++ [fp]) ∨
    (∃ fp, op = .ext .root (.removeFromWhitelist src fp) ∧ fp ∈ s.orc.whitelist src) := by
  rcases whitelist_effect h src with h | ⟨fp, h, _, h1, _, h2⟩ | ⟨fp, h, h1, _⟩
  · exact absurd h hch
  · exact .inl ⟨fp, h, h1, h2⟩
  · exact .inr ⟨fp, h, h1⟩

example : (exec cfg start (.ext .root (.addToWhitelist demoSource (Arr.fill 32 7)))).isOk = true ∧
    (step cfg start (.ext .root (.addToWhitelist demoSource (Arr.fill 32 7)))).orc.whitelist demoSource ≠
      start.orc.whitelist demoSource := by decide +kernel

/-- C43: a removed entry is gone, and all others are kept in order. -/
theorem C43_removed (c : Cfg) (s s' : Chain) (o : Origin) (src : Bytes) (fp : Fingerprint)
    (h : exec c s (.ext o (.removeFromWhitelist src fp)) = .ok s') :
    fp ∉ s'.orc.whitelist src ∧ (∀ m, m ≠ fp → (m ∈ s'.orc.whitelist src ↔ m ∈ s.orc.whitelist src)) ∧
    List.Sublist (s'.orc.whitelist src) (s.orc.whitelist src) ∧
    ∀ src', src' ≠ src → s'.orc.whitelist src' = s.orc.whitelist src' := by
  obtain ⟨rfl, h1, rfl⟩ := removeFromWhitelist_ok.mp h
  refine ⟨by simp, ?_, by simp [List.filter_sublist], ?_⟩
  · intro m hm; simp [hm]
  · intro x hx; simp [hx]

example : FreshOracle start ∧ (accepted cfg start oracleHistory).length = 5 ∧
    (run cfg start oracleHistory).orc.whitelist demoSource = [Arr.fill 32 7] ∧
    (run cfg start (oracleHistory ++ [.ext .root (.removeFromWhitelist demoSource (Arr.fill 32 7))])).orc.whitelist
      demoSource = [] :=
  ⟨demo_freshOracle, by decide +kernel, by decide +kernel, by decide +kernel⟩

/-! ### C44 Oracle data is only written by whitelisted enclaves -/

/-- C44: a rate changes only by the update call for this very source and pair, signed by a whitelisted enclave. -/
theorem C44_rates (c : Cfg) (s s' : Chain) (op : Op) (pair src : Bytes) (h : exec c s op = .ok s')
    (hch : s'.orc.rates pair src ≠ s.orc.rates pair src) :
    ∃ a r, op = .ext (.signed a) (.updateExchangeRate src pair r) ∧ OracleFor s src a := by
  rcases rates_effect h pair src with h | ⟨a, r, h, h1, _⟩
  · exact absurd h hch
  · exact ⟨a, r, h, h1⟩

/-- The fifth operation of the history stores a rate. -/
example : (exec cfg (run cfg start (oracleHistory.take 4))
      (.ext (.signed alice) (.updateExchangeRate demoSource demoPair (some 43)))).isOk = true ∧
    (step cfg (run cfg start (oracleHistory.take 4))
      (.ext (.signed alice) (.updateExchangeRate demoSource demoPair (some 43)))).orc.rates demoPair demoSource ≠
      (run cfg start (oracleHistory.take 4)).orc.rates demoPair demoSource := by decide +kernel

/-- C44: a blob changes only by the update call for this very source and name, signed by a whitelisted enclave. -/
theorem C44_blobs (c : Cfg) (s s' : Chain) (op : Op) (name src : Bytes) (h : exec c s op = .ok s')
    (hch : s'.orc.blobs name src ≠ s.orc.blobs name src) :
    ∃ a b, op = .ext (.signed a) (.updateOracle name src b) ∧ OracleFor s src a ∧ s'.orc.blobs name src = some b := by
  rcases blobs_effect h name src with h | ⟨a, b, h, h1, _, _, _, h2⟩
  · exact absurd h hch
  · exact ⟨a, b, h, h1, h2⟩

/-- The last operation of the history stores a blob. -/
example : (exec cfg (run cfg start (oracleHistory.take 6)) (.ext (.signed alice) (.updateOracle [1] demoSource [1, 2, 3]))).isOk =
      true ∧
    (step cfg (run cfg start (oracleHistory.take 6)) (.ext (.signed alice) (.updateOracle [1] demoSource [1, 2, 3]))).orc.blobs
      [1] demoSource ≠ (run cfg start (oracleHistory.take 6)).orc.blobs [1] demoSource := by decide +kernel

/-- C44: every rate that can be read was submitted by an enclave that was whitelisted for the source then. -/
theorem C44_provenance (c : Cfg) (s0 : Chain) (ops : List Op) (h0 : FreshOracle s0) (pair src : Bytes) (r : Nat)
    (h : (run c s0 ops).orc.rates pair src = some r) :
    ∃ p ∈ accepted c s0 ops, ∃ a, p.2 = .ext (.signed a) (.updateExchangeRate src pair (some r)) ∧
      OracleFor p.1 src a := by
  revert h
  refine history_induction (c := c) (s0 := s0) (P := fun s acc => s.orc.rates pair src = some r →
    ∃ p ∈ acc, ∃ a, p.2 = .ext (.signed a) (.updateExchangeRate src pair (some r)) ∧ OracleFor p.1 src a) ?_ ?_ ops
  · simp [h0.2.1]
  · intro s s' op acc ih hx h
    rcases rates_effect hx pair src with h1 | ⟨a, r', hop, hor, _, h1⟩
    · rw [h1] at h
      obtain ⟨p, hp, hr⟩ := ih h
      exact ⟨p, List.mem_append_left _ hp, hr⟩
    · refine ⟨(s, op), by simp, a, ?_, hor⟩
      rw [h1] at h
      rw [hop]
      rcases r' with _ | _ | r' <;> simp [storedRate] at h
      subst h; rfl

example : ∃ p ∈ accepted cfg start oracleHistory, ∃ a,
    p.2 = .ext (.signed a) (.updateExchangeRate demoSource demoPair (some 43)) ∧ OracleFor p.1 demoSource a :=
  C44_provenance cfg start oracleHistory demo_freshOracle demoPair demoSource 43 (by decide +kernel)

/-- C44: who may write a rate, exactly. -/
theorem C44_rate_iff (c : Cfg) (s : Chain) (o : Origin) (src pair : Bytes) (r : Option Nat) :
    (∃ s', exec c s (.ext o (.updateExchangeRate src pair r)) = .ok s') ↔
      ∃ a, o = .signed a ∧ OracleFor s src a ∧ pair.length ≤ 11 := by
  constructor
  · rintro ⟨s', h⟩
    obtain ⟨a, e, rfl, h1, h2, h3, rfl⟩ := updateExchangeRate_ok.mp h
    exact ⟨a, rfl, ⟨e, h1, h3⟩, h2⟩
  · rintro ⟨a, rfl, ⟨e, h1, h3⟩, h2⟩
    exact ⟨_, updateExchangeRate_ok.mpr ⟨a, e, rfl, h1, h2, h3, rfl⟩⟩

/-- C44: every blob that can be read was submitted by an enclave that was whitelisted for the source then. -/
theorem C44_blob_provenance (c : Cfg) (s0 : Chain) (ops : List Op) (h0 : FreshOracle s0) (name src b : Bytes)
    (h : (run c s0 ops).orc.blobs name src = some b) :
    ∃ p ∈ accepted c s0 ops, ∃ a, p.2 = .ext (.signed a) (.updateOracle name src b) ∧ OracleFor p.1 src a := by
  revert h
  refine history_induction (c := c) (s0 := s0) (P := fun s acc => s.orc.blobs name src = some b →
    ∃ p ∈ acc, ∃ a, p.2 = .ext (.signed a) (.updateOracle name src b) ∧ OracleFor p.1 src a) ?_ ?_ ops
  · simp [h0.2.2]
  · intro s s' op acc ih hx h
    rcases blobs_effect hx name src with h1 | ⟨a, b', hop, hor, _, _, _, h1⟩
    · rw [h1] at h
      obtain ⟨p, hp, hr⟩ := ih h
      exact ⟨p, List.mem_append_left _ hp, hr⟩
    · rw [h1, Option.some.injEq] at h
      subst h
      exact ⟨(s, op), by simp, a, hop, hor⟩

example : ∃ p ∈ accepted cfg start oracleHistory, ∃ a,
    p.2 = .ext (.signed a) (.updateOracle [1] demoSource [1, 2, 3]) ∧ OracleFor p.1 demoSource a :=
  C44_blob_provenance cfg start oracleHistory demo_freshOracle [1] demoSource [1, 2, 3] (by decide +kernel)

/-- C44: who may write a blob, exactly. -/
theorem C44_blob_iff (c : Cfg) (s : Chain) (o : Origin) (name src b : Bytes) :
    (∃ s', exec c s (.ext o (.updateOracle name src b)) = .ok s') ↔
      ∃ a, o = .signed a ∧ OracleFor s src a ∧ name.length ≤ 40 ∧ src.length ≤ 40 ∧ b.length ≤ c.maxBlob := by
  constructor
  · rintro ⟨s', h⟩
    obtain ⟨a, e, rfl, h1, h2, h3, h4, h5, rfl⟩ := updateOracle_ok.mp h
    exact ⟨a, rfl, ⟨e, h1, h2⟩, h3, h4, h5⟩
  · rintro ⟨a, rfl, ⟨e, h1, h2⟩, h3, h4, h5⟩
    exact ⟨_, updateOracle_ok.mpr ⟨a, e, rfl, h1, h2, h3, h4, h5, rfl⟩⟩

example : (run cfg start oracleHistory).orc.rates demoPair demoSource = some 43 ∧
    (run cfg start (oracleHistory.take 4)).orc.rates demoPair demoSource = none ∧
    (run cfg start oracleHistory).orc.blobs [1] demoSource = some [1, 2, 3] := by decide +kernel

/-! ### C45 Oracle storage keys and values are bounded -/

/-- C45: the bounds of everything stored. -/
theorem C45_bounds (c : Cfg) (s0 : Chain) (ops : List Op) (h0 : FreshOracle s0) (src : Bytes) :
    ((run c s0 ops).orc.whitelist src ≠ [] → src.length ≤ 40) ∧
    (∀ pair, (run c s0 ops).orc.rates pair src ≠ none → pair.length ≤ 11 ∧ src.length ≤ 40) ∧
    (∀ name b, (run c s0 ops).orc.blobs name src = some b →
      name.length ≤ 40 ∧ src.length ≤ 40 ∧ b.length ≤ c.maxBlob) := by
  refine run_invariant (c := c) (P := fun s => (s.orc.whitelist src ≠ [] → src.length ≤ 40) ∧
    (∀ pair, s.orc.rates pair src ≠ none → pair.length ≤ 11 ∧ src.length ≤ 40) ∧
    (∀ name b, s.orc.blobs name src = some b → name.length ≤ 40 ∧ src.length ≤ 40 ∧ b.length ≤ c.maxBlob)) ?_ ?_ ops
  · rintro s s' op ⟨ih1, ih2, ih3⟩ hx
    refine ⟨?_, ?_, ?_⟩
    · rcases whitelist_effect hx src with h | ⟨fp, _, h1, _⟩ | ⟨fp, _, h1, h⟩
      · rw [h]; exact ih1
      · exact fun _ => h1
      · exact fun _ => ih1 (List.ne_nil_of_mem h1)
    · intro pair
      rcases rates_effect hx pair src with h | ⟨a, r, _, ⟨e, _, h1⟩, h2, _⟩
      · rw [h]; exact ih2 pair
      · exact fun _ => ⟨h2, ih1 (List.ne_nil_of_mem h1)⟩
    · intro name b
      rcases blobs_effect hx name src with h | ⟨a, b', _, _, h1, h2, h3, h4⟩
      · rw [h]; exact ih3 name b
      · rw [h4]
        intro h; simp only [Option.some.injEq] at h; subst h
        exact ⟨h1, h2, h3⟩
  · exact ⟨fun h => absurd (h0.1 src) h, fun p h => absurd (h0.2.1 p src) h,
      fun n b h => by rw [h0.2.2 n src] at h; simp at h⟩

/-- A source of 41 bytes can neither be whitelisted nor written; one of 40 bytes can. -/
example : FreshOracle start ∧ (accepted cfg (run cfg start [enroll alice 7]) [
    .ext .root (.addToWhitelist (bytes 41 1) (Arr.fill 32 7)), .ext .root (.addToWhitelist (bytes 40 1) (Arr.fill 32 7)),
    .ext (.signed alice) (.updateExchangeRate (bytes 41 1) demoPair (some 43)),
    .ext (.signed alice) (.updateExchangeRate (bytes 40 1) demoPair (some 43))]).length = 2 :=
  ⟨demo_freshOracle, by decide +kernel⟩

/-! ### C46 Zero exchange rates are never stored -/

/-- C46: no stored rate is zero. -/
theorem C46_no_zero (c : Cfg) (s0 : Chain) (ops : List Op) (h0 : FreshOracle s0) (pair src : Bytes) :
    (run c s0 ops).orc.rates pair src ≠ some 0 := by
  refine run_invariant (c := c) (P := fun s => s.orc.rates pair src ≠ some 0) ?_ (by simp [h0.2.1]) ops
  intro s s' op ih hx
  rcases rates_effect hx pair src with h | ⟨a, r, _, _, _, h⟩
  · rw [h]; exact ih
  · rw [h]
    rcases r with _ | _ | r <;> simp [storedRate]

example : FreshOracle start ∧ (run cfg start oracleHistory).orc.rates demoPair demoSource ≠ none :=
  ⟨demo_freshOracle, by decide +kernel⟩

/-- C46: after an update the rate read back is the submitted value, or zero for none, however often other rates,
blobs and whitelists change afterwards. -/
theorem C46_read_back (c : Cfg) (s s' : Chain) (o : Origin) (src pair : Bytes) (r : Option Nat)
    (h : exec c s (.ext o (.updateExchangeRate src pair r)) = .ok s') (ops : List Op)
    (hops : ∀ op ∈ ops, ∀ o r, op ≠ .ext o (.updateExchangeRate src pair r)) :
    exchangeRate (run c s' ops) pair src = r.getD 0 := by
  have h1 : s'.orc.rates pair src = storedRate r := by
    obtain ⟨a, e, rfl, h1, h2, h3, rfl⟩ := updateExchangeRate_ok.mp h
    simp
  have h2 : (run c s' ops).orc.rates pair src = storedRate r := by
    refine run_invariant' (c := c) (Q := fun op => ∀ o r, op ≠ .ext o (.updateExchangeRate src pair r))
      (P := fun s => s.orc.rates pair src = storedRate r) ?_ h1 ops hops
    intro s s' op hq ih hx
    rcases rates_effect hx pair src with h | ⟨a, r', h, _⟩
    · rw [h, ih]
    · exact absurd h (hq _ _)
  unfold exchangeRate
  rw [h2]
  rcases r with _ | _ | r <;> simp [storedRate]

/-- The rate stored by Alice survives the attempt of Bob's enclave and a later block. -/
example : exchangeRate (run cfg (step cfg (run cfg start (oracleHistory.take 4))
      (.ext (.signed alice) (.updateExchangeRate demoSource demoPair (some 43)))) [.newBlock 6, enroll carol 9])
    demoPair demoSource = 43 :=
  C46_read_back cfg _ _ _ demoSource demoPair (some 43) (exec_ok_of_isOk
    (op := .ext (.signed alice) (.updateExchangeRate demoSource demoPair (some 43))) (by decide +kernel)) _
    (by intro op h o r; simp only [enroll, List.mem_cons, List.not_mem_nil, or_false] at h; rcases h with rfl | rfl <;> simp)

/-- C46: a rate that was never set, or was deleted, reads as zero. -/
theorem C46_default (s : Chain) (src pair : Bytes) (h : s.orc.rates pair src = none) : exchangeRate s pair src = 0 := by
  simp [exchangeRate, h]

example : start.orc.rates demoPair demoSource = none := rfl

example : FreshOracle start ∧ exchangeRate (run cfg start oracleHistory) demoPair demoSource = 43 ∧
    exchangeRate (run cfg start (oracleHistory ++
      [.ext (.signed alice) (.updateExchangeRate demoSource demoPair (some 0))])) demoPair demoSource = 0 ∧
    exchangeRate (run cfg start (oracleHistory ++
      [.ext (.signed alice) (.updateExchangeRate demoSource demoPair none)])) demoPair demoSource = 0 :=
  ⟨demo_freshOracle, by decide +kernel, by decide +kernel, by decide +kernel⟩

end Verif
