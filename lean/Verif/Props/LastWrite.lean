import Verif.Spec.LastWrite
import Verif.Props.Teeracle
import Verif.Props.Xcm
import Verif.Proofs.TeerexInv

/-!
# What is read is what was written last: C173
-/

namespace Verif

open Demo

/-- If every accepted operation either writes nothing and changes nothing, or changes to what it writes, then the value after a
history is what was written last. -/
theorem last_written {α : Type} (c : Cfg) (s0 : Chain) (ops : List Op) (read : Chain → α) (writes : Op → Option α)
    (h : ∀ s s' op, exec c s op = .ok s' → (writes op = none ∧ read s' = read s) ∨ writes op = some (read s')) :
    read (run c s0 ops) = (lastWritten writes (accepted c s0 ops)).getD (read s0) := by
  refine history_induction (c := c) (s0 := s0) (P := fun st acc => read st = (lastWritten writes acc).getD (read s0)) rfl ?_ ops
  intro s s' op acc ih hx
  unfold lastWritten at ih ⊢
  rw [List.filterMap_append]
  rcases h s s' op hx with ⟨h1, h2⟩ | h1
  · rw [h2, ih]
    simp [h1]
  · simp [h1]

/-- C173: the exchange rate that is read at the end of any history is the one in the last accepted update for this pair by this
source, or the one at the beginning if there was none. An update without a rate counts as zero. -/
theorem C173_exchange_rate (c : Cfg) (s0 : Chain) (ops : List Op) (pair src : Bytes) :
    Teeracle.exchangeRate (run c s0 ops) pair src =
      (lastWritten (writesRate pair src) (accepted c s0 ops)).getD (Teeracle.exchangeRate s0 pair src) := by
  refine last_written c s0 ops (fun s => Teeracle.exchangeRate s pair src) _ fun s s' op hx => ?_
  by_cases hw : ∃ o r, op = .ext o (.updateExchangeRate src pair r)
  · obtain ⟨o, r, rfl⟩ := hw
    obtain ⟨a, e, rfl, _, _, _, rfl⟩ := Teeracle.updateExchangeRate_ok.mp hx
    right
    match r with
    | none => simp [writesRate, Teeracle.exchangeRate, Teeracle.storedRate]
    | some 0 => simp [writesRate, Teeracle.exchangeRate, Teeracle.storedRate]
    | some (r + 1) => simp [writesRate, Teeracle.exchangeRate, Teeracle.storedRate]
  · left
    constructor
    · unfold writesRate
      split
      · rename_i src' pair' r
        rw [if_neg]
        rintro ⟨rfl, rfl⟩
        exact hw ⟨_, r, rfl⟩
      · rfl
    · rcases rates_effect hx pair src with h | ⟨a, r, rfl, _⟩
      · simp [Teeracle.exchangeRate, h]
      · exact absurd ⟨_, r, rfl⟩ hw

/-- C173: the same for the data of a source. -/
theorem C173_oracle_data (c : Cfg) (s0 : Chain) (ops : List Op) (name src : Bytes) :
    Teeracle.oracleData (run c s0 ops) name src =
      (lastWritten (writesBlob name src) (accepted c s0 ops)).getD (Teeracle.oracleData s0 name src) := by
  refine last_written c s0 ops (fun s => Teeracle.oracleData s name src) _ fun s s' op hx => ?_
  by_cases hw : ∃ o b, op = .ext o (.updateOracle name src b)
  · obtain ⟨o, b, rfl⟩ := hw
    obtain ⟨a, e, rfl, _, _, _, _, _, rfl⟩ := Teeracle.updateOracle_ok.mp hx
    right
    simp [writesBlob, Teeracle.oracleData]
  · left
    constructor
    · unfold writesBlob
      split
      · rename_i name' src' b
        rw [if_neg]
        rintro ⟨rfl, rfl⟩
        exact hw ⟨_, b, rfl⟩
      · rfl
    · rcases blobs_effect hx name src with h | ⟨a, b, rfl, _⟩
      · simp [Teeracle.oracleData, h]
      · exact absurd ⟨_, b, rfl⟩ hw

/-- C173: a code is on the whitelist of a source exactly if the last accepted call about the two put it there, or if there was no
such call and it was on the list at the beginning. -/
theorem C173_whitelist (c : Cfg) (s0 : Chain) (ops : List Op) (src : Bytes) (fp : Fingerprint) :
    Teeracle.isWhitelisted (run c s0 ops) src fp =
      (lastWritten (writesListed src fp) (accepted c s0 ops)).getD (Teeracle.isWhitelisted s0 src fp) := by
  refine last_written c s0 ops (fun s => Teeracle.isWhitelisted s src fp) _ fun s s' op hx => ?_
  by_cases hw : ∃ o, op = .ext o (.addToWhitelist src fp)
  · obtain ⟨o, rfl⟩ := hw
    obtain ⟨rfl, _, _, _, rfl⟩ := Teeracle.addToWhitelist_ok.mp hx
    right
    simp [writesListed, Teeracle.isWhitelisted]
  · by_cases hr : ∃ o, op = .ext o (.removeFromWhitelist src fp)
    · obtain ⟨o, rfl⟩ := hr
      obtain ⟨rfl, _, rfl⟩ := Teeracle.removeFromWhitelist_ok.mp hx
      right
      simp [writesListed, Teeracle.isWhitelisted]
    · left
      constructor
      · unfold writesListed
        split
        · rw [if_neg]
          rintro ⟨rfl, rfl⟩
          exact hw ⟨_, rfl⟩
        · rw [if_neg]
          rintro ⟨rfl, rfl⟩
          exact hr ⟨_, rfl⟩
        · rfl
      · rcases whitelist_effect hx src with h | ⟨fp', rfl, _, _, _, h⟩ | ⟨fp', rfl, _, h⟩
        · simp [Teeracle.isWhitelisted, h]
        · have : fp ≠ fp' := fun h' => hw ⟨_, by rw [h']⟩
          simp [Teeracle.isWhitelisted, h, this]
        · have : fp ≠ fp' := fun h' => hr ⟨_, by rw [h']⟩
          simp [Teeracle.isWhitelisted, h, this]

/-- C173: the security flags are those that were set last. -/
theorem C173_flags (c : Cfg) (s0 : Chain) (ops : List Op) :
    ((run c s0 ops).tx.allowSkip, (run c s0 ops).tx.allowDebug) =
      (lastWritten writesFlags (accepted c s0 ops)).getD (s0.tx.allowSkip, s0.tx.allowDebug) := by
  refine last_written c s0 ops (fun s => (s.tx.allowSkip, s.tx.allowDebug)) _ fun s s' op hx => ?_
  by_cases hw : ∃ o a d, op = .ext o (.setSecurityFlags a d)
  · obtain ⟨o, a, d, rfl⟩ := hw
    obtain ⟨rfl, rfl⟩ := Teerex.setSecurityFlags_ok.mp hx
    exact .inr rfl
  · left
    constructor
    · unfold writesFlags
      split
      · exact absurd ⟨_, _, _, rfl⟩ hw
      · rfl
    · rcases flags_effect hx with ⟨h1, h2⟩ | h
      · simp only [h1, h2]
      · exact absurd ⟨_, _, _, h⟩ hw

/-- C173: the location of an asset is the one of its last registration, unless it was unregistered after that. -/
theorem C173_location (c : Cfg) (s0 : Chain) (ops : List Op) (id : AssetId) :
    (run c s0 ops).ar.idLoc id = (lastWritten (writesLocation id) (accepted c s0 ops)).getD (s0.ar.idLoc id) := by
  refine last_written c s0 ops (fun s => s.ar.idLoc id) _ fun s s' op hx => ?_
  rcases registry_effect hx with ⟨h, hp⟩ | ⟨o, id', loc, rfl, _, h, _⟩ | ⟨o, id', loc, rfl, _, h, _⟩
  · left
    refine ⟨?_, by rw [h]⟩
    unfold writesLocation
    split
    · exact absurd (by simp [Op.parts, Call.parts]) hp
    · exact absurd (by simp [Op.parts, Call.parts]) hp
    · rfl
  · by_cases hi : id' = id
    · subst hi; right; simp [writesLocation, h]
    · left; simp [writesLocation, h, hi, upd, Ne.symm hi]
  · by_cases hi : id' = id
    · subst hi; right; simp [writesLocation, h]
    · left; simp [writesLocation, h, hi, upd, Ne.symm hi]

/-! ### Examples -/

/-- Alice's enclave writes a rate, deletes it, and writes another one; the last update, of another source, and Bob's are refused. -/
def rateOps : List Op :=
  [enroll alice 7, .ext .root (.addToWhitelist [1] (Arr.fill 32 7)), .ext (.signed alice) (.updateExchangeRate [1] [2] (some 5)),
   .ext (.signed alice) (.updateExchangeRate [1] [2] none), .ext (.signed alice) (.updateExchangeRate [1] [2] (some 9)),
   .ext (.signed alice) (.updateExchangeRate [3] [2] (some 11)), .ext (.signed bob) (.updateExchangeRate [1] [2] (some 12)),
   .ext (.signed alice) (.updateOracle [4] [1] [5, 6]), .ext .root (.removeFromWhitelist [1] (Arr.fill 32 7)),
   .ext .root (.setSecurityFlags false true), .setAsset 1 1, registerOp 1 locA, unregisterOp 1, registerOp 1 locB]

/-- The claims say what is read after this history. -/
example : Teeracle.exchangeRate (run cfg start rateOps) [2] [1] = 9 ∧ Teeracle.exchangeRate (run cfg start rateOps) [2] [3] = 0 ∧
    lastWritten (writesRate [2] [1]) (accepted cfg start rateOps) = some 9 ∧
    lastWritten (writesRate [2] [3]) (accepted cfg start rateOps) = none ∧
    Teeracle.oracleData (run cfg start rateOps) [4] [1] = [5, 6] ∧
    lastWritten (writesBlob [4] [1]) (accepted cfg start rateOps) = some [5, 6] ∧
    lastWritten (writesListed [1] (Arr.fill 32 7)) (accepted cfg start rateOps) = some false ∧
    lastWritten writesFlags (accepted cfg start rateOps) = some (false, true) ∧
    lastWritten (writesLocation 1) (accepted cfg start rateOps) = some (some locB) := by decide +kernel

end Verif
