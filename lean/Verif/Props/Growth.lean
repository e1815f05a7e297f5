import Verif.Spec.Growth
import Verif.Props.Weights
import Verif.Proofs.Frame

/-!
# Storage entries come and go only by calls that are meant for it: C177
-/

namespace Verif

open Demo EnclaveBridge Scale

/-- What is new is in a short list, and what is gone may be removed. -/
def Changes (n : Nat) (R : Slot → Prop) (s s' : Chain) : Prop :=
  (∃ l : List Slot, l.length ≤ n ∧ ∀ x : Slot, x.exists s' → x.exists s ∨ x ∈ l) ∧
  ∀ x : Slot, x.exists s → x.exists s' ∨ R x

theorem exists_of_same {s s' : Chain} {x : Slot} (h : x.same s s') : x.exists s ↔ x.exists s' := by
  cases x <;> simp only [Slot.same] at h <;> simp [Slot.exists, h]

/-- By looking at the entries that are not the same. -/
theorem Changes.of {s s' : Chain} {n : Nat} {R : Slot → Prop} (l : List Cell) (new : List Slot) (hn : new.length ≤ n)
    (hs : ∀ x, Cell.slot x ∉ l → x.same s s')
    (h : ∀ x, Cell.slot x ∈ l → (x.exists s' → x.exists s ∨ x ∈ new) ∧ (x.exists s → x.exists s' ∨ R x)) : Changes n R s s' := by
  constructor
  · refine ⟨new, hn, fun x hx => ?_⟩
    by_cases hm : Cell.slot x ∈ l
    · exact (h x hm).1 hx
    · exact .inl ((exists_of_same (hs x hm)).mpr hx)
  · intro x hx
    by_cases hm : Cell.slot x ∈ l
    · exact (h x hm).2 hx
    · exact .inl ((exists_of_same (hs x hm)).mp hx)

theorem Changes.none {s s' : Chain} {n : Nat} {R : Slot → Prop} (hs : ∀ x : Slot, x.same s s') : Changes n R s s' :=
  .of [] [] (Nat.zero_le _) (fun x _ => hs x) (fun x h => by simp at h)

/-- The entries outside of the list are the same, for claims. -/
macro "claim_slots" : tactic =>
  `(tactic| (
    intro x hx
    cases x <;> first
      | rfl
      | (exfalso; apply hx; simp; done)
      | (simp only [List.mem_cons, Cell.slot.injEq, reduceCtorEq, Scale.Slot.claim.injEq, Scale.Slot.vesting.injEq,
          Scale.Slot.signing.injEq, Scale.Slot.preclaim.injEq, List.not_mem_nil, or_false, false_or, not_or] at hx
         simp [Scale.Slot.same, upd_apply, hx])
      | simp at hx))

set_option hygiene false in
/-- The entries in the list, one after the other. -/
macro "listed" : tactic =>
  `(tactic| (
    intro x hx
    simp only [List.mem_cons, Cell.slot.injEq, reduceCtorEq, List.not_mem_nil, or_false] at hx))

theorem processClaim_changes {c : Cfg} {s s1 s' : Chain} {g : EthAddr} {d : AccountId} {n : Nat} {R : Slot → Prop}
    (h : Claims.processClaim c s g d = .ok s1)
    (hx : ∀ x : Slot, (∀ a, x ≠ .preclaim a) → x.same s1 s')
    (hp : ∀ a, s'.cl.preclaims a ≠ none → s.cl.preclaims a ≠ none)
    (hp' : ∀ a, s.cl.preclaims a ≠ none → s'.cl.preclaims a = none → R (.preclaim a))
    (hr : ∀ x, (x = .claim g ∨ x = .vesting g ∨ x = .signing g) → R x) : Changes n R s s' := by
  have key : Changes n R s s1 := by
    obtain ⟨due, bal, h1, h2, h3, rfl⟩ := Claims.processClaim_ok.mp h
    exact .of [.slot (.claim g), .slot (.vesting g), .slot (.signing g), .slot .claimsTotal] []
      (Nat.zero_le _) (by claim_slots) (by
          intro x hx
          simp only [List.mem_cons, Cell.slot.injEq, List.not_mem_nil, or_false] at hx
          rcases hx with rfl | rfl | rfl | rfl
          · exact ⟨fun h => absurd (upd_same _ _ _) h, fun _ => .inr (hr _ (.inl rfl))⟩
          · exact ⟨fun h => absurd (upd_same _ _ _) h, fun _ => .inr (hr _ (.inr (.inl rfl)))⟩
          · exact ⟨fun h => absurd (upd_same _ _ _) h, fun _ => .inr (hr _ (.inr (.inr rfl)))⟩
          · exact ⟨fun _ => .inl trivial, fun _ => .inl trivial⟩)
  obtain ⟨⟨l, hl, k1⟩, k2⟩ := key
  constructor
  · refine ⟨l, hl, fun x hx' => ?_⟩
    by_cases hpre : ∃ a, x = .preclaim a
    · obtain ⟨a, rfl⟩ := hpre
      exact .inl (hp a hx')
    · exact k1 x ((exists_of_same (hx x (fun a h => hpre ⟨a, h⟩))).mpr hx')
  · intro x hx'
    by_cases hpre : ∃ a, x = .preclaim a
    · obtain ⟨a, rfl⟩ := hpre
      by_cases hq : s'.cl.preclaims a = none
      · exact .inr (hp' a hx' hq)
      · exact .inl hq
    · rcases k2 x hx' with k | k
      · exact .inl ((exists_of_same (hx x (fun a h => hpre ⟨a, h⟩))).mp k)
      · exact .inr k

theorem moveEntry_new {V : Type} {m : EthAddr → Option V} {old new : EthAddr} {x : EthAddr}
    (h : Claims.moveEntry m old new x ≠ none) : m x ≠ none ∨ x = new := by
  cases ho' : m old with
  | none => simp only [Claims.moveEntry, ho'] at h; exact .inl h
  | some v =>
    simp only [Claims.moveEntry, ho'] at h
    by_cases hx : x = new
    · exact .inr hx
    · rw [upd_ne _ _ hx] at h
      by_cases ho : x = old
      · subst ho; simp at h
      · rw [upd_ne _ _ ho] at h; exact .inl h

theorem moveEntry_gone {V : Type} {m : EthAddr → Option V} {old new : EthAddr} {x : EthAddr} (hm : m x ≠ none)
    : Claims.moveEntry m old new x ≠ none ∨ (x = old ∧ old ≠ new) := by
  cases ho' : m old with
  | none => simp only [Claims.moveEntry, ho']; exact .inl hm
  | some v =>
    simp only [Claims.moveEntry, ho']
    by_cases hx : x = new
    · subst hx; left; simp
    · rw [upd_ne _ _ hx]
      by_cases ho : x = old
      · subst ho; exact .inr ⟨rfl, hx⟩
      · rw [upd_ne _ _ ho]; exact .inl hm

theorem exec_changes {c : Cfg} {s s' : Chain} {op : Op} (h : exec c s op = .ok s') :
    Changes op.creations (Removes c s op) s s' := by
  cases op with
  | newBlock => cases h; exact .none fun x => by cases x <;> rfl
  | mint => cases h; exact .none fun x => by cases x <;> rfl
  | slash => cases h; exact .none fun x => by cases x <;> rfl
  | setOtherLock => cases h; exact .none fun x => by cases x <;> rfl
  | vest => cases h; exact .none fun x => by cases x <;> rfl
  | addVesting a v =>
    simp only [exec] at h
    split at h
    · cases h; exact .none fun x => by cases x <;> rfl
    · cases h
  | setAsset => cases h; exact .none fun x => by cases x <;> rfl
  | destroyAsset => cases h; exact .none fun x => by cases x <;> rfl
  | ext o k =>
    cases k with
    | bond v =>
      obtain ⟨a, _, _, _, rfl⟩ := Teerdays.bond_ok.mp h
      refine .of [.slot (.teerDayBonds a)] [.teerDayBonds a] (Nat.le_refl _) (by slots) ?_
      listed; subst hx; exact ⟨fun _ => .inr (by simp), fun _ => .inl (by simp [Slot.exists])⟩
    | bondExtra v =>
      obtain ⟨a, b, _, _, hb, _, rfl⟩ := Teerdays.bondExtra_ok.mp h
      refine .of [.slot (.teerDayBonds a)] [] (Nat.le_refl _) (by slots) ?_
      listed; subst hx; exact ⟨fun _ => .inl (by simp [Slot.exists, *]), fun _ => .inl (by simp [Slot.exists])⟩
    | unbond v =>
      obtain ⟨a, b, _, rfl, _, _, hb, _, rfl⟩ := Teerdays.unbond_ok.mp h
      refine .of [.slot (.teerDayBonds a), .slot (.pendingUnlock a)] [.pendingUnlock a] (Nat.le_refl _) (by slots) ?_
      listed
      rcases hx with rfl | rfl
      · refine ⟨fun _ => .inl (by simp [Slot.exists, hb]), fun _ => ?_⟩
        by_cases hv : b.value - v < c.ed
        · exact .inr (.unbond a v b hb hv)
        · exact .inl (by simp [Slot.exists, hv])
      · exact ⟨fun _ => .inr (by simp), fun _ => .inl (by simp [Slot.exists])⟩
    | updateOther v =>
      obtain ⟨_, _, _, hb, rfl⟩ := Teerdays.updateOther_ok.mp h
      refine .of [.slot (.teerDayBonds v)] [] (Nat.le_refl _) (by slots) ?_
      listed; subst hx; exact ⟨fun _ => .inl (by simp [Slot.exists, hb]), fun _ => .inl (by simp [Slot.exists])⟩
    | withdrawUnbonded =>
      obtain ⟨a, _, _, rfl, _, _, rfl⟩ := Teerdays.withdrawUnbonded_ok.mp h
      refine .of [.slot (.pendingUnlock a)] [] (Nat.le_refl _) (by slots) ?_
      listed; subst hx; exact ⟨fun h => absurd (upd_same _ _ _) h, fun _ => .inr (.withdraw a)⟩
    | registerSgxEnclave =>
      obtain ⟨a, e, _, _, _, _, _, (⟨_, rfl⟩ | ⟨_, g, _, rfl⟩)⟩ := Teerex.registerSgxEnclave_ok.mp h
      · refine .of [.slot (.sovereignEnclaves a)] [.sovereignEnclaves a] (Nat.le_refl _) (by slots) ?_
        listed; subst hx; exact ⟨fun _ => .inr (by simp), fun _ => .inl (by simp [Slot.exists])⟩
      · refine .of [.slot (.proxiedEnclaves ⟨e.fingerprint, a, g⟩)] [.proxiedEnclaves ⟨e.fingerprint, a, g⟩] (Nat.le_refl _) (by slots) ?_
        listed; subst hx; exact ⟨fun _ => .inr (by simp), fun _ => .inl (by simp [Slot.exists])⟩
    | unregisterSovereignEnclave a =>
      obtain ⟨b, _, rfl, _, _, rfl⟩ := Teerex.unregisterSovereignEnclave_ok.mp h
      refine .of [.slot (.sovereignEnclaves a)] [] (Nat.le_refl _) (by slots) ?_
      listed; subst hx; exact ⟨fun h => absurd (upd_same _ _ _) h, fun _ => .inr (.sovereign b a)⟩
    | unregisterProxiedEnclave a =>
      obtain ⟨b, _, rfl, _, _, rfl⟩ := Teerex.unregisterProxiedEnclave_ok.mp h
      refine .of [.slot (.proxiedEnclaves a)] [] (Nat.le_refl _) (by slots) ?_
      listed; subst hx; exact ⟨fun h => absurd (upd_same _ _ _) h, fun _ => .inr (.proxied b a)⟩
    | registerQuotingEnclave =>
      obtain ⟨_, _, _, _, rfl⟩ := Teerex.registerQuotingEnclave_ok.mp h
      refine .of [.slot .quotingEnclave] [] (Nat.le_refl _) (by slots) ?_
      listed; subst hx; exact ⟨fun _ => .inl trivial, fun _ => .inl trivial⟩
    | registerTcbInfo =>
      obtain ⟨_, f, _, _, _, rfl⟩ := Teerex.registerTcbInfo_ok.mp h
      refine .of [.slot (.tcbInfo f)] [.tcbInfo f] (Nat.le_refl _) (by slots) ?_
      listed; subst hx; exact ⟨fun _ => .inr (by simp), fun _ => .inl (by simp [Slot.exists])⟩
    | setSecurityFlags =>
      obtain ⟨_, rfl⟩ := Teerex.setSecurityFlags_ok.mp h
      refine .of [.slot .allowDebug, .slot .allowSkip] [] (Nat.le_refl _) (by slots) ?_
      listed; rcases hx with rfl | rfl <;> exact ⟨fun _ => .inl trivial, fun _ => .inl trivial⟩
    | invoke shard cy =>
      obtain ⟨_, _, rfl⟩ := (invoke_ok (cy := cy)).mp h
      exact .none fun x => by cases x <;> rfl
    | confirmProcessedParentchainBlock shard =>
      obtain ⟨_, _, _, _, rfl⟩ := confirmProcessed_ok.mp h
      refine .of [.slot (.shardStatus shard), .slot (.shardConfig shard)] [.shardStatus shard] (Nat.le_refl _) (by slots) ?_
      listed
      rcases hx with rfl | rfl
      · exact ⟨fun _ => .inr (by simp), fun _ => .inl (by simp [Slot.exists])⟩
      · exact ⟨fun h => .inl (by simpa [Slot.exists, dueConfig] using h), fun h => .inl (by simpa [Slot.exists, dueConfig] using h)⟩
    | shieldFunds shard =>
      obtain ⟨a, _, _, hb, rfl⟩ := shieldFunds_ok.mp h
      exact .none fun x => by cases x <;> rfl
    | unshieldFunds shard ben _ hash =>
      obtain ⟨_, _, _, _, (⟨_, _, _, hb, _, rfl⟩ | ⟨_, _, _, _, rfl⟩)⟩ := unshieldFunds_ok.mp h
      all_goals
        refine .of [.slot (.shardStatus shard), .slot (.shardConfig shard), .slot (.executedUnshieldCalls hash)]
          [.shardStatus shard, .executedUnshieldCalls hash] (Nat.le_refl _) (by slots) ?_
        listed
        rcases hx with rfl | rfl | rfl
        · exact ⟨fun _ => .inr (by simp), fun _ => .inl (by simp [Slot.exists])⟩
        · exact ⟨fun h => .inl (by simpa [Slot.exists, dueConfig] using h), fun h => .inl (by simpa [Slot.exists, dueConfig] using h)⟩
        · exact ⟨fun _ => .inr (by simp), fun _ => .inl (by simp [Slot.exists])⟩
    | publishHash hash topics data =>
      obtain ⟨_, e, _, _, _, _, _, _, _, rfl⟩ := publishHash_ok.mp h
      refine .of [.slot (.shardStatus e.fingerprint)] [.shardStatus e.fingerprint] (Nat.le_refl _) (by slots) ?_
      listed; subst hx; exact ⟨fun _ => .inr (by simp), fun _ => .inl (by simp [Slot.exists])⟩
    | updateShardConfig shard =>
      rcases updateShardConfig_ok.mp h with ⟨_, rfl⟩ | ⟨_, _, _, _, _, _, _, _, rfl⟩
      · refine .of [.slot (.shardConfig shard)] [.shardConfig shard] (by simp [Op.creations]) (by slots) ?_
        listed; subst hx; exact ⟨fun _ => .inr (by simp), fun _ => .inl (by simp [Slot.exists])⟩
      · refine .of [.slot (.shardStatus shard), .slot (.shardConfig shard)] [.shardStatus shard, .shardConfig shard] (Nat.le_refl _)
          (by slots) ?_
        listed; rcases hx with rfl | rfl <;> exact ⟨fun _ => .inr (by simp), fun _ => .inl (by simp [Slot.exists])⟩
    | purgeEnclave shard =>
      obtain ⟨_, _, hl, _, rfl⟩ := purgeEnclave_ok.mp h
      refine .of [.slot (.shardStatus shard)] [] (Nat.le_refl _) (by slots) ?_
      listed; subst hx; exact ⟨fun _ => .inl (by simp [Slot.exists, hl]), fun _ => .inl (by simp [Slot.exists])⟩
    | confirmImportedSidechainBlock shard =>
      obtain ⟨_, _, _, _, _, _, (⟨_, rfl⟩ | ⟨_, _, rfl⟩)⟩ := Sidechain.confirmImported_ok.mp h
      · refine .of [.slot (.shardStatus shard), .slot (.shardConfig shard)] [.shardStatus shard] (by simp [Op.creations]) (by slots) ?_
        listed
        rcases hx with rfl | rfl
        · exact ⟨fun _ => .inr (by simp), fun _ => .inl (by simp [Slot.exists])⟩
        · exact ⟨fun h => .inl (by simpa [Slot.exists, dueConfig] using h), fun h => .inl (by simpa [Slot.exists, dueConfig] using h)⟩
      · refine .of [.slot (.shardStatus shard), .slot (.shardConfig shard), .slot (.latestConfirmation shard)]
          [.shardStatus shard, .latestConfirmation shard] (Nat.le_refl _) (by slots) ?_
        listed
        rcases hx with rfl | rfl | rfl
        · exact ⟨fun _ => .inr (by simp), fun _ => .inl (by simp [Slot.exists])⟩
        · exact ⟨fun h => .inl (by simpa [Slot.exists, dueConfig] using h), fun h => .inl (by simpa [Slot.exists, dueConfig] using h)⟩
        · exact ⟨fun _ => .inr (by simp), fun _ => .inl (by simp [Slot.exists])⟩
    | addToWhitelist src =>
      obtain ⟨_, _, _, _, rfl⟩ := Teeracle.addToWhitelist_ok.mp h
      refine .of [.slot (.whitelist src)] [.whitelist src] (Nat.le_refl _) (by slots) ?_
      listed; subst hx; exact ⟨fun _ => .inr (by simp), fun _ => .inl (by simp [Slot.exists])⟩
    | removeFromWhitelist src fp =>
      obtain ⟨rfl, hm, rfl⟩ := Teeracle.removeFromWhitelist_ok.mp h
      refine .of [.slot (.whitelist src)] [] (Nat.le_refl _) (by slots) ?_
      listed; subst hx
      refine ⟨fun _ => .inl (List.ne_nil_of_mem hm), fun _ => ?_⟩
      by_cases ha : ∀ x ∈ s.orc.whitelist src, x = fp
      · exact .inr (.whitelist src fp ha)
      · left
        simp only [Slot.exists, upd_same, ne_eq, List.filter_eq_nil_iff, decide_eq_true_eq]
        intro hn
        exact ha fun x hx => Classical.byContradiction fun hne => hn x hx hne
    | updateOracle name src =>
      obtain ⟨_, _, _, _, _, _, _, _, rfl⟩ := Teeracle.updateOracle_ok.mp h
      refine .of [.slot (.oracleData name src)] [.oracleData name src] (Nat.le_refl _) (fun x hx => ?_) ?_
      · cases x <;> first | rfl | exact upd_upd_other (by rintro ⟨rfl, rfl⟩; simp at hx)
      · listed; subst hx; exact ⟨fun _ => .inr (by simp), fun _ => .inl (by simp [Slot.exists])⟩
    | updateExchangeRate src pair r =>
      obtain ⟨a, _, rfl, _, _, _, rfl⟩ := Teeracle.updateExchangeRate_ok.mp h
      refine .of [.slot (.exchangeRate pair src)] [.exchangeRate pair src] (Nat.le_refl _) (fun x hx => ?_) ?_
      · cases x <;> first | rfl | exact upd_upd_other (by rintro ⟨rfl, rfl⟩; simp at hx)
      · listed; subst hx
        refine ⟨fun _ => .inr (by simp), fun _ => ?_⟩
        rcases r with _ | _ | r
        · exact .inr (.rate a src pair none rfl)
        · exact .inr (.rate a src pair (some 0) rfl)
        · exact .inl (by simp [Slot.exists, Teeracle.storedRate])
    | claims q =>
      cases q with
      | claim d sig =>
        obtain ⟨g, _, h1, _, h2⟩ := Claims.claim_ok.mp h
        exact processClaim_changes h2 (fun x _ => by cases x <;> rfl)
          (fun a ha => by obtain ⟨_, _, _, _, _, rfl⟩ := Claims.processClaim_ok.mp h2; exact ha)
          (fun a ha hb => by obtain ⟨_, _, _, _, _, rfl⟩ := Claims.processClaim_ok.mp h2; exact absurd hb ha)
          (fun x hx => .paid o _ g x hx (.inl ⟨d, sig, rfl, h1⟩))
      | claimAttest d sig st =>
        obtain ⟨g, _, h1, _, h2⟩ := Claims.claimAttest_ok.mp h
        exact processClaim_changes h2 (fun x _ => by cases x <;> rfl)
          (fun a ha => by obtain ⟨_, _, _, _, _, rfl⟩ := Claims.processClaim_ok.mp h2; exact ha)
          (fun a ha hb => by obtain ⟨_, _, _, _, _, rfl⟩ := Claims.processClaim_ok.mp h2; exact absurd hb ha)
          (fun x hx => .paid o _ g x hx (.inr (.inl ⟨d, sig, st, rfl, h1⟩)))
      | attest st =>
        obtain ⟨who, g, s1, rfl, h1, _, h2, rfl⟩ := Claims.attest_ok.mp h
        refine processClaim_changes h2 (fun x hx => ?_) (fun a ha => ?_) (fun a ha hb => ?_)
          (fun x hx => .paid _ _ g x hx (.inr (.inr ⟨who, st, rfl, rfl, h1⟩)))
        · cases x <;> first | rfl | exact absurd rfl (hx _)
        · obtain ⟨_, _, _, _, _, rfl⟩ := Claims.processClaim_ok.mp h2
          by_cases hw : a = who
          · subst hw; simp at ha
          · simpa [upd_ne _ _ hw] using ha
        · obtain ⟨_, _, _, _, _, rfl⟩ := Claims.processClaim_ok.mp h2
          by_cases hw : a = who
          · subst hw; exact .preclaim a st
          · simp [upd_ne _ _ hw] at hb; exact absurd hb ha
      | mintClaim who v vs st =>
        obtain ⟨_, _, _, rfl⟩ := Claims.mintClaim_ok.mp h
        refine .of [.slot (.claim who), .slot (.vesting who), .slot (.signing who), .slot .claimsTotal]
          [.claim who, .vesting who, .signing who] (Nat.le_refl _) ?_ ?_
        · intro x hx
          cases x <;> first
            | rfl
            | (exfalso; apply hx; simp; done)
            | (simp only [List.mem_cons, Cell.slot.injEq, reduceCtorEq, Scale.Slot.claim.injEq, Scale.Slot.vesting.injEq,
                Scale.Slot.signing.injEq, List.not_mem_nil, or_false, false_or, not_or] at hx
               cases vs <;> cases st <;> simp [Scale.Slot.same, Claims.setSome, upd_apply, hx])
            | simp at hx
        · listed
          rcases hx with rfl | rfl | rfl | rfl
          · exact ⟨fun _ => .inr (by simp), fun _ => .inl (by simp [Slot.exists])⟩
          · refine ⟨fun _ => .inr (by simp), fun hv => .inl ?_⟩
            cases vs <;> simp [Slot.exists, Claims.setSome] at hv ⊢
            exact hv
          · refine ⟨fun _ => .inr (by simp), fun hv => .inl ?_⟩
            cases st <;> simp [Slot.exists, Claims.setSome] at hv ⊢
            exact hv
          · exact ⟨fun _ => .inl trivial, fun _ => .inl trivial⟩
      | moveClaim old new p =>
        obtain ⟨_, rfl⟩ := Claims.moveClaim_ok.mp h
        refine ⟨⟨[.claim new, .vesting new, .signing new], Nat.le_refl _, fun x hx => ?_⟩, fun x hx => ?_⟩
        · cases x with
          | claim e => exact (moveEntry_new hx).imp id fun h => by subst h; simp
          | vesting e => exact (moveEntry_new hx).imp id fun h => by subst h; simp
          | signing e => exact (moveEntry_new hx).imp id fun h => by subst h; simp
          | preclaim a =>
            left
            simp only [Slot.exists, Claims.movedPreclaims] at hx ⊢
            split at hx
            · split at hx
              · rename_i b hb
                by_cases hab : a = b
                · subst hab; rw [hb]; simp
                · rwa [upd_ne _ _ hab] at hx
              · exact hx
            · exact hx
          | _ => exact .inl hx
        · cases x with
          | claim e => exact (moveEntry_gone hx).imp id fun ⟨h1, h2⟩ => .moved _ _ _ _ _ (by simp [h1]) h2
          | vesting e => exact (moveEntry_gone hx).imp id fun ⟨h1, h2⟩ => .moved _ _ _ _ _ (by simp [h1]) h2
          | signing e => exact (moveEntry_gone hx).imp id fun ⟨h1, h2⟩ => .moved _ _ _ _ _ (by simp [h1]) h2
          | preclaim a =>
            left
            simp only [Slot.exists, Claims.movedPreclaims] at hx ⊢
            split
            · split
              · rename_i b hb
                by_cases hab : a = b
                · subst hab; simp
                · rwa [upd_ne _ _ hab]
              · exact hx
            · exact hx
          | _ => exact .inl hx
    | registerReserveAsset i l =>
      obtain ⟨_, _, _, _, rfl⟩ := AssetRegistry.registerReserveAsset_ok.mp h
      refine .of [.slot (.assetIdLocation i), .slot (.assetLocationId l)] [.assetIdLocation i, .assetLocationId l] (Nat.le_refl _)
        (by slots) ?_
      listed; rcases hx with rfl | rfl <;> exact ⟨fun _ => .inr (by simp), fun _ => .inl (by simp [Slot.exists])⟩
    | unregisterReserveAsset i =>
      obtain ⟨l, _, hl, rfl⟩ := AssetRegistry.unregisterReserveAsset_ok.mp h
      refine .of [.slot (.assetIdLocation i), .slot (.assetLocationId l)] [] (Nat.le_refl _) (by slots) ?_
      listed
      rcases hx with rfl | rfl
      · exact ⟨fun h => absurd (upd_same _ _ _) h, fun _ => .inr (.asset o i _ l hl (.inl rfl))⟩
      · exact ⟨fun h => absurd (upd_same _ _ _) h, fun _ => .inr (.asset o i _ l hl (.inr rfl))⟩
    | sendSwapUmp =>
      obtain ⟨_, _, _, _, _, _, rfl⟩ := XcmTransactor.sendSwapUmp_ok.mp h
      exact .none fun x => by cases x <;> rfl
    | balTransfer dst =>
      obtain ⟨a, _, _, hb, rfl⟩ := balTransfer_ok.mp h
      exact .none fun x => by cases x <;> rfl

/-- **C177.** An accepted operation creates at most as many entries as its kind allows, … -/
theorem C177_created {c : Cfg} {s s' : Chain} {op : Op} (h : exec c s op = .ok s') :
    ∃ l : List Slot, l.length ≤ op.creations ∧ ∀ x : Slot, x.exists s' → x.exists s ∨ x ∈ l :=
  (exec_changes h).1

theorem creations_le (op : Op) : op.creations ≤ 3 := by
  unfold Op.creations
  split
  · split <;> decide
  · decide

/-- … so after any history there are, besides the entries of the start, at most as many as the accepted operations
create, which is at most three for each of them: what was refused creates nothing. -/
theorem C177_growth {c : Cfg} {s : Chain} (ops : List Op) :
    ((accepted c s ops).map (fun x => x.2.creations)).sum ≤ 3 * (accepted c s ops).length ∧
    ∃ l : List Slot, l.length ≤ ((accepted c s ops).map (fun x => x.2.creations)).sum ∧
      ∀ x : Slot, x.exists (run c s ops) → x.exists s ∨ x ∈ l := by
  constructor
  · induction accepted c s ops with
    | nil => simp
    | cons x l ih =>
      have := creations_le x.2
      simp only [List.map_cons, List.sum_cons, List.length_cons]
      omega
  · induction ops generalizing s with
    | nil => exact ⟨[], Nat.zero_le _, fun x hx => .inl hx⟩
    | cons op ops ih =>
      cases h : exec c s op with
      | error e =>
        obtain ⟨l, h1, h2⟩ := ih (s := s)
        refine ⟨l, ?_, fun x hx => h2 x ?_⟩
        · simpa only [accepted, h] using h1
        · simpa only [run, List.foldl_cons, step, h] using hx
      | ok s' =>
        obtain ⟨l, h1, h2⟩ := ih (s := s')
        obtain ⟨l', h1', h2'⟩ := C177_created h
        refine ⟨l' ++ l, ?_, fun x hx => ?_⟩
        · simp only [accepted, h, List.map_cons, List.sum_cons, List.length_append]
          omega
        · rcases h2 x (by simpa only [run, List.foldl_cons, step, h] using hx) with h3 | h3
          · exact (h2' x h3).imp id fun h4 => List.mem_append_left _ h4
          · exact .inr (List.mem_append_right _ h3)

/-- An entry goes away only by an operation that is meant to remove it. -/
theorem C177_removed {c : Cfg} {s s' : Chain} {op : Op} {x : Slot} (h : exec c s op = .ok s') (hx : x.exists s)
    (hn : ¬ x.exists s') : Removes c s op x :=
  ((exec_changes h).2 x hx).resolve_left hn

/-- Of an entry that is gone after a history, one of the accepted operations was a removal. -/
theorem C177_removed_in {c : Cfg} {s : Chain} {ops : List Op} {x : Slot} (hx : x.exists s) (hn : ¬ x.exists (run c s ops)) :
    ∃ t op, (t, op) ∈ accepted c s ops ∧ Removes c t op x := by
  induction ops generalizing s with
  | nil => exact absurd hx hn
  | cons op ops ih =>
    cases h : exec c s op with
    | error e =>
      obtain ⟨t, op', h1, h2⟩ := ih hx (by simpa only [run, List.foldl_cons, step, h] using hn)
      exact ⟨t, op', by simpa only [accepted, h] using h1, h2⟩
    | ok s' =>
      by_cases hx' : x.exists s'
      · obtain ⟨t, op', h1, h2⟩ := ih hx' (by simpa only [run, List.foldl_cons, step, h] using hn)
        exact ⟨t, op', by simp only [accepted, h]; exact List.mem_cons_of_mem _ h1, h2⟩
      · exact ⟨s, op, by simp only [accepted, h]; exact List.mem_cons_self, C177_removed h hx hx'⟩

/-- TCB information, the state and configuration of shards, executed calls, the last confirmed sidechain block and oracle
data are never removed by anyone. -/
theorem C177_permanent {c : Cfg} {s : Chain} {x : Slot} (hp : x.permanent = true) (ops : List Op) (hx : x.exists s) :
    x.exists (run c s ops) := by
  refine Classical.byContradiction fun hn => ?_
  obtain ⟨t, op, hm, hr⟩ := C177_removed_in hx hn
  clear hm
  cases hr with
  | paid _ _ _ _ h => rcases h with h | h | h <;> simp [h, Slot.permanent] at hp
  | moved _ _ _ _ _ h => rcases h with h | h | h <;> simp [h, Slot.permanent] at hp
  | asset _ _ _ _ _ h => rcases h with h | h <;> simp [h, Slot.permanent] at hp
  | _ => simp [Slot.permanent] at hp

/-! ### Examples -/

/-- Alice bonds, unbonds everything and withdraws; root configures a shard. -/
def growthOps : List Op :=
  [.ext (.signed alice) (.bond 1000), .newBlock 6, .ext (.signed alice) (.unbond 1000), .newBlock 1000000000,
   .ext (.signed alice) .withdrawUnbonded, .ext .root (.updateShardConfig shard7 (config 7) 0)]

/-- All six are accepted, and they create at most four entries. The bond is there after the first and gone after the third, the
configuration stays. -/
example : (accepted cfg start growthOps).length = 6 ∧
    ((accepted cfg start growthOps).map (fun x => x.2.creations)).sum = 4 ∧
    (Slot.teerDayBonds alice).exists (run cfg start (growthOps.take 1)) ∧
    ¬ (Slot.teerDayBonds alice).exists (run cfg start (growthOps.take 3)) ∧
    (Slot.pendingUnlock alice).exists (run cfg start (growthOps.take 3)) ∧
    ¬ (Slot.pendingUnlock alice).exists (run cfg start growthOps) ∧
    (Slot.shardConfig shard7).exists (run cfg start growthOps) ∧ (Slot.shardConfig shard7).permanent = true := by
  refine ⟨by decide +kernel, by decide +kernel, ?_, ?_, ?_, ?_, ?_, rfl⟩ <;> simp only [Slot.exists, ne_eq] <;> decide +kernel

end Verif
