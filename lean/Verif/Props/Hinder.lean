import Verif.Spec.Hinder
import Verif.Props.Locality
import Verif.Props.Accept
import Verif.Props.Vesting
import Verif.Props.Teeracle
import Verif.Proofs.TeerdaysInv
import Verif.Spec.DemoBridge

/-!
# C161: what can make a call fail that would have succeeded
-/

namespace Verif

open Demo EnclaveBridge

/-! ### Time -/

theorem clock_kept {c : Cfg} {s s' : Chain} {op : Op} (h : exec c s op = .ok s') (hn : ∀ dt, op ≠ .newBlock dt) :
    s'.now = s.now ∧ s'.block = s.block := by
  cases op with
  | ext o k => obtain ⟨h1, h2, _⟩ := C124_only_own_places c s s' o k h; exact ⟨h1, h2⟩
  | newBlock dt => exact absurd rfl (hn dt)
  | _ => exact exec_frame h .clock (by simp [Op.parts])

theorem clock_cases {c : Cfg} {s s' : Chain} {op : Op} (h : exec c s op = .ok s') :
    (∃ dt, op = .newBlock dt ∧ s' = { s with block := s.block + 1, now := s.now + dt }) ∨
    ((∀ dt, op ≠ .newBlock dt) ∧ s'.now = s.now ∧ s'.block = s.block) := by
  by_cases hn : ∃ dt, op = .newBlock dt
  · obtain ⟨dt, rfl⟩ := hn
    simp only [exec, Except.ok.injEq] at h
    exact .inl ⟨dt, rfl, h.symm⟩
  · have hn' : ∀ dt, op ≠ .newBlock dt := fun dt e => hn ⟨dt, e⟩
    exact .inr ⟨hn', clock_kept h hn'⟩

theorem now_le {c : Cfg} {s s' : Chain} {op : Op} (h : exec c s op = .ok s') : s.now ≤ s'.now := by
  rcases clock_cases h with ⟨dt, _, rfl⟩ | ⟨_, h1, _⟩
  · exact Nat.le_add_right _ _
  · omega

/-! ### teerdays -/

theorem noBond_kept {c : Cfg} {s s' : Chain} {op : Op} (h : exec c s op = .ok s') {a : AccountId}
    (h0 : s.td.bonds a = none) (hn : ∀ v, op ≠ .ext (.signed a) (.bond v)) : s'.td.bonds a = none := by
  cases tdEffect h a with
  | same _ hv => rw [(view_same hv).1, h0]
  | updated _ hb _ => rw [h0] at hb; cases hb
  | bond => exact absurd rfl (hn _)
  | extra _ _ hb _ _ _ _ => rw [h0] at hb; cases hb
  | unbond _ _ hb _ _ _ _ _ => rw [h0] at hb; cases hb
  | withdraw _ _ _ _ hv => rw [(view_bond hv).1, h0]

theorem bonded_kept {c : Cfg} {s s' : Chain} {op : Op} (h : exec c s op = .ok s') {a : AccountId}
    (h0 : s.td.bonds a ≠ none) (hn : ∀ v, op ≠ .ext (.signed a) (.unbond v)) : s'.td.bonds a ≠ none := by
  cases tdEffect h a with
  | same _ hv => rw [(view_same hv).1]; exact h0
  | updated _ _ hv => rw [(view_bond hv).1]; simp
  | bond _ _ _ _ hv => rw [(view_bond hv).1]; simp
  | extra _ _ _ _ _ _ hv => rw [(view_bond hv).1]; simp
  | unbond => exact absurd rfl (hn _)
  | withdraw _ _ _ _ hv => rw [(view_bond hv).1]; exact h0

theorem noPending_kept {c : Cfg} {s s' : Chain} {op : Op} (h : exec c s op = .ok s') {a : AccountId}
    (h0 : s.td.pending a = none) (hn : ∀ v, op ≠ .ext (.signed a) (.unbond v)) : s'.td.pending a = none := by
  cases tdEffect h a with
  | same _ hv => rw [(view_same hv).2.1, h0]
  | updated _ _ hv => rw [(view_bond hv).2.1]; exact h0
  | bond _ _ _ _ hv => rw [(view_bond hv).2.1]; exact h0
  | extra _ _ _ _ _ _ hv => rw [(view_bond hv).2.1]
  | unbond => exact absurd rfl (hn _)
  | withdraw _ _ _ _ hv => rw [(view_bond hv).2.1]

theorem pending_kept {c : Cfg} {s s' : Chain} {op : Op} (h : exec c s op = .ok s') {a : AccountId} {p : Nat × Nat}
    (h0 : s.td.pending a = some p) (hn : op ≠ .ext (.signed a) .withdrawUnbonded) : s'.td.pending a = some p := by
  cases tdEffect h a with
  | same _ hv => rw [(view_same hv).2.1, h0]
  | updated _ _ hv => rw [(view_bond hv).2.1]; exact h0
  | bond _ _ _ _ hv => rw [(view_bond hv).2.1]; exact h0
  | extra _ _ _ hp _ _ _ => rw [h0] at hp; cases hp
  | unbond _ _ _ hp _ _ _ _ => rw [h0] at hp; cases hp
  | withdraw => exact absurd rfl hn

/-! ### Enclaves -/

theorem sovereign_kept {c : Cfg} {s s' : Chain} {op : Op} (h : exec c s op = .ok s') {a : AccountId}
    (hn : ¬ op.changesEnclave a) : s'.tx.sovereign a = s.tx.sovereign a := by
  rcases sovereign_effect h a with h1 | ⟨_, _, _, _, rfl, _⟩ | ⟨_, _, rfl, _⟩
  · exact h1
  · exact absurd rfl hn
  · exact absurd rfl hn

theorem touchList_place {l : List SignerStatus} {new : SignerStatus} (hnd : (l.map (·.signer)).Nodup) :
    ((touchList l new).map (·.signer)) =
      if new.signer ∈ l.map (·.signer) then l.map (·.signer) else l.map (·.signer) ++ [new.signer] := by
  rw [touchList_eq hnd, touchedList_signers]

theorem hasPlace_kept {c : Cfg} {s s' : Chain} {op : Op} (hs : StatusOk s) (h : exec c s op = .ok s')
    {shard : ShardId} {a : AccountId} (h0 : HasPlace s shard a) (hn : ¬ TakesLastPlace c s op shard a) :
    HasPlace s' shard a := by
  obtain ⟨hlen, hnd, _⟩ := hs shard
  by_cases hsame : s'.br.status shard = s.br.status shard
  · unfold HasPlace statusOf at *; rw [hsame]; exact h0
  rcases status_effect h shard with h1 | ⟨b, k, e, rfl, _, h2, h3⟩ | ⟨b, l, rfl, h2, h3⟩
  · exact absurd h1 hsame
  · have h4 : statusOf s' shard = touchList (statusOf s shard) ⟨b, e.mrEnclave, s.block⟩ := by
      unfold statusOf at *; rw [h2]; rfl
    have h5 := touchList_place (new := ⟨b, e.mrEnclave, s.block⟩) hnd
    unfold HasPlace at h0 ⊢
    rw [← List.length_map (f := fun i : SignerStatus => i.signer), h4, h5]
    simp only
    split
    · simpa using h0
    · rename_i hb
      by_cases hab : b = a
      · subst hab; exact .inl (by simp)
      · rcases h0 with h0 | h0
        · exact .inl (by simp [h0])
        · by_cases ha : a ∈ (statusOf s shard).map (·.signer)
          · exact .inl (List.mem_append_left _ ha)
          right
          simp only [List.length_append, List.length_map, List.length_singleton]
          rcases Nat.lt_or_ge ((statusOf s shard).length + 1) 10 with h6 | h6
          · exact h6
          · refine absurd ⟨b, k, rfl, hab, ?_, by omega, ha, hb⟩ hn
            refine Classical.byContradiction fun hc => hsame ?_
            exact ((C124_only_own_places c s s' _ k h).2.2 _ hc).1.symm
  · unfold HasPlace at h0 ⊢
    have e1 : statusOf s shard = l := by unfold statusOf; rw [h2]; rfl
    have e2 : statusOf s' shard = l.filter fun i => i.signer ≠ b := by unfold statusOf; rw [h3]; rfl
    rw [e1] at h0 hlen
    rw [e2]
    have hle := List.length_filter_le (fun i : SignerStatus => decide (i.signer ≠ b)) l
    rcases h0 with h0 | h0
    · by_cases hab : a = b
      · right
        subst hab
        obtain ⟨i, hi, hia⟩ := List.mem_map.mp h0
        have : (l.filter fun i => decide (i.signer ≠ a)).length < l.length :=
          List.length_filter_lt_length_iff_exists.mpr ⟨i, hi, by simp [hia]⟩
        omega
      · left
        obtain ⟨i, hi, hia⟩ := List.mem_map.mp h0
        exact List.mem_map.mpr ⟨i, List.mem_filter.mpr ⟨hi, by simp [hia, hab]⟩, hia⟩
    · right; omega

theorem inEffect_kept {c : Cfg} {s s' : Chain} {op : Op} (h : exec c s op = .ok s') {shard : ShardId}
    (hn : ∀ o cfg delay, op ≠ .ext o (.updateShardConfig shard cfg delay)) (n : Nat) (hb : s.block ≤ n) :
    configInEffect s' shard n = configInEffect s shard n := by
  rcases inEffect_effect h shard with h1 | ⟨o, cfg, d, rfl, _⟩
  · exact h1 n hb
  · exact absurd rfl (hn o cfg d)

theorem fingerprint_kept {c : Cfg} {s s' : Chain} {op : Op} (h : exec c s op = .ok s') {shard : ShardId}
    (hn : ¬ Reconfigures s op shard) :
    fingerprintInEffect s' shard s'.block = fingerprintInEffect s shard s.block ∧
    (configInEffect s' shard s'.block = none ↔ configInEffect s shard s.block = none) := by
  have h1 : ∀ o cfg delay, op ≠ .ext o (.updateShardConfig shard cfg delay) := fun o cfg d e => hn (.inl ⟨o, cfg, d, e⟩)
  rcases clock_cases h with ⟨dt, rfl, rfl⟩ | ⟨_, _, hb⟩
  · have h2 : fingerprintInEffect s shard (s.block + 1) = fingerprintInEffect s shard s.block :=
      Classical.byContradiction fun e => hn (.inr ⟨dt, rfl, e⟩)
    refine ⟨h2, ?_⟩
    simp [configInEffect]
  · have h2 := inEffect_kept h h1 s.block (Nat.le_refl _)
    rw [hb]
    unfold fingerprintInEffect
    rw [h2]
    exact ⟨rfl, Iff.rfl⟩

theorem mayAct_kept {c : Cfg} {s s' : Chain} {op : Op} (hs : StatusOk s) (h : exec c s op = .ok s') {o : Origin}
    {shard : ShardId} {a : AccountId} (h0 : MayAct s o shard a) (hn : ¬ HindersEnclave c s op shard a) :
    MayAct s' o shard a := by
  obtain ⟨h1, ⟨e, h2, h3⟩, h4⟩ := h0
  refine ⟨h1, ⟨e, ?_, ?_⟩, hasPlace_kept hs h h4 fun hc => hn (.inr (.inr hc))⟩
  · rw [sovereign_kept h fun hc => hn (.inl hc)]; exact h2
  · rw [(fingerprint_kept h fun hc => hn (.inr (.inl hc))).1]; exact h3

/-! ### Money -/

theorem transfer_sender {ed m : Nat} {b b' : Balances} {src dst x : AccountId} {v : Nat}
    (h : b.transfer ed m src dst v = .ok b') (hx : x ≠ src) :
    b.free x ≤ b'.free x ∧ (x ≠ dst → b'.free x = b.free x) ∧ b'.lock = b.lock := by
  rcases Balances.transfer_ok h with ⟨_, rfl⟩ | ⟨_, _, _, _, _, _, rfl⟩
  · exact ⟨Nat.le_refl _, fun _ => rfl, rfl⟩
  · refine ⟨?_, ?_, rfl⟩
    · simp only [upd_apply]
      split
      · subst_vars; omega
      · simp [hx]
    · intro hd; simp [upd_apply, hx, hd]

theorem deposit_ge {ed m : Nat} (b : Balances) (who x : AccountId) (v : Nat) :
    b.free x ≤ (b.depositCreating ed m who v).free x ∧ (b.depositCreating ed m who v).lock = b.lock := by
  unfold Balances.depositCreating
  split
  · exact ⟨Nat.le_refl _, rfl⟩
  · refine ⟨?_, rfl⟩
    simp only [upd_apply]
    split
    · subst_vars; omega
    · exact Nat.le_refl _

theorem notMoney_publish (c : Cfg) (s : Chain) (o : Origin) (h : H256) (l : List H256) (d : Bytes) (x : AccountId) :
    .money x ∉ (Call.publishHash h l d).changes c s o := by
  cases o with
  | signed a => simp only [Call.changes, Origin.own, ownShard]; split <;> simp
  | _ => simp [Call.changes, Origin.own]

theorem payer_kept {c : Cfg} {s s' : Chain} {op : Op} (h : exec c s op = .ok s') {x : AccountId}
    (h1 : ¬ op.spends x) (h2 : ¬ op.locks x) :
    s.bal.free x ≤ s'.bal.free x ∧ ∀ id, s'.bal.lock id x ≤ s.bal.lock id x := by
  have same : MoneySame s.bal s'.bal x →
      s.bal.free x ≤ s'.bal.free x ∧ ∀ id, s'.bal.lock id x ≤ s.bal.lock id x :=
    fun hm => ⟨Nat.le_of_eq hm.1, fun id => Nat.le_of_eq (hm.2 id).symm⟩
  cases op with
  | ext o k =>
    by_cases hm : .money x ∈ k.changes c s o
    · cases k with
      | withdrawUnbonded =>
        obtain ⟨a, due, amount, rfl, _, _, rfl⟩ := Teerdays.withdrawUnbonded_ok.mp h
        refine ⟨?_, fun id => ?_⟩
        · simp only; split <;> simp
        · simp only
          by_cases hx : x = a
          · subst hx
            split
            · by_cases hi : id = .teerdays
              · subst hi; simp [Balances.removeLock, upd_same]
              · simp [Balances.removeLock, upd_ne _ _ hi]
            · unfold Balances.setLock
              split
              · exact Nat.le_refl _
              · by_cases hi : id = .teerdays
                · subst hi; simp [upd_same]
                · simp [upd_ne _ _ hi]
          · split
            · exact Nat.le_of_eq (removeLock_lock_other hx)
            · exact Nat.le_of_eq (setLock_lock_other hx)
      | shieldFunds i inc v =>
        obtain ⟨b, bal, rfl, hb, rfl⟩ := shieldFunds_ok.mp h
        obtain ⟨t1, _, t3⟩ := transfer_sender hb (x := x) (by rintro rfl; exact h1 rfl)
        exact ⟨t1, fun id => Nat.le_of_eq (by simp only [t3])⟩
      | unshieldFunds i ben v g =>
        obtain ⟨b, e, l, _, (⟨h5, bb, n, hb, _, rfl⟩ | ⟨k, n, h5, _, rfl⟩)⟩ := unshieldFunds_ok.mp h
        · obtain ⟨t1, _, t3⟩ := transfer_sender hb (x := x) (by rintro rfl; exact h1 rfl)
          exact ⟨t1, fun id => Nat.le_of_eq (by simp only [t3])⟩
        · exact ⟨Nat.le_refl _, fun _ => Nat.le_refl _⟩
      | balTransfer dst v =>
        obtain ⟨b, bal, rfl, hb, rfl⟩ := balTransfer_ok.mp h
        obtain ⟨t1, _, t3⟩ := transfer_sender hb (x := x) (by rintro rfl; exact h1 rfl)
        exact ⟨t1, fun id => Nat.le_of_eq (by simp only [t3])⟩
      | claims k =>
        cases k with
        | attest st => cases o <;> simp_all [Op.locks, Call.changes, Origin.own]
        | _ => simp_all [Op.locks, Call.changes]
      | publishHash => exact absurd hm (notMoney_publish c s o _ _ _ x)
      | _ => cases o <;> simp_all [Op.locks, Call.changes, Origin.own]
    · exact same ((C124_only_own_places c s s' o k h).2.2 _ hm)
  | newBlock dt => simp only [exec, Except.ok.injEq] at h; subst h; exact ⟨Nat.le_refl _, fun _ => Nat.le_refl _⟩
  | mint a n =>
    simp only [exec, Except.ok.injEq] at h; subst h
    obtain ⟨t1, t2⟩ := deposit_ge (ed := c.ed) (m := c.balMax) s.bal a x n
    exact ⟨t1, fun id => Nat.le_of_eq (by simp only [t2])⟩
  | slash a n =>
    simp only [exec, Except.ok.injEq] at h; subst h
    have : x ≠ a := fun e => h1 e.symm
    simp [upd_ne _ _ this]
  | setOtherLock a n =>
    simp only [exec, Except.ok.injEq] at h; subst h
    have : x ≠ a := fun e => h2 e.symm
    refine ⟨Nat.le_refl _, fun id => ?_⟩
    by_cases hi : id = .other
    · subst hi; simp [upd_same, upd_ne _ _ this]
    · simp [upd_ne _ _ hi]
  | vest a =>
    have hx : x ≠ a := fun e => h2 e.symm
    simp only [exec, Except.ok.injEq] at h; subst h
    refine ⟨Nat.le_refl _, fun id => Nat.le_of_eq ?_⟩
    by_cases hi : id = .vesting
    · subst hi; simp [Balances.updateVesting, upd_same, upd_ne _ _ hx]
    · exact Balances.updateVesting_lock _ _ _ _ _ _ hi
  | addVesting a v =>
    have hx : x ≠ a := fun e => h2 e.symm
    simp only [exec] at h
    split at h
    · rename_i b hb
      simp only [Except.ok.injEq] at h; subst h
      exact same (addVesting_frame hb x hx).1
    · cases h
  | setAsset i m => simp only [exec, Except.ok.injEq] at h; subst h; exact ⟨Nat.le_refl _, fun _ => Nat.le_refl _⟩
  | destroyAsset i => simp only [exec, Except.ok.injEq] at h; subst h; exact ⟨Nat.le_refl _, fun _ => Nat.le_refl _⟩

theorem receiver_kept {c : Cfg} {s s' : Chain} {op : Op} (h : exec c s op = .ok s') {x : AccountId}
    (h1 : ¬ op.spends x) (h2 : ¬ op.gives x) : s'.bal.free x = s.bal.free x := by
  cases op with
  | ext o k =>
    by_cases hm : .money x ∈ k.changes c s o
    · cases k with
      | bond v => obtain ⟨_, _, _, _, rfl⟩ := Teerdays.bond_ok.mp h; simp
      | bondExtra v => obtain ⟨_, _, _, _, _, _, rfl⟩ := Teerdays.bondExtra_ok.mp h; simp
      | withdrawUnbonded =>
        obtain ⟨a, due, amount, rfl, _, _, rfl⟩ := Teerdays.withdrawUnbonded_ok.mp h
        simp only; split <;> simp
      | shieldFunds i inc v =>
        obtain ⟨b, bal, rfl, hb, rfl⟩ := shieldFunds_ok.mp h
        exact (transfer_sender hb (x := x) (by rintro rfl; exact h1 rfl)).2.1 (by rintro rfl; exact h2 rfl)
      | unshieldFunds i ben v g =>
        obtain ⟨b, e, l, _, (⟨h5, bb, n, hb, _, rfl⟩ | ⟨k, n, h5, _, rfl⟩)⟩ := unshieldFunds_ok.mp h
        · exact (transfer_sender hb (x := x) (by rintro rfl; exact h1 rfl)).2.1 (by rintro rfl; exact h2 rfl)
        · rfl
      | balTransfer dst v =>
        obtain ⟨b, bal, rfl, hb, rfl⟩ := balTransfer_ok.mp h
        exact (transfer_sender hb (x := x) (by rintro rfl; exact h1 rfl)).2.1 (by rintro rfl; exact h2 rfl)
      | claims k =>
        cases k with
        | attest st => cases o <;> simp_all [Op.gives, Call.changes, Origin.own]
        | _ => simp_all [Op.gives, Call.changes]
      | publishHash => exact absurd hm (notMoney_publish c s o _ _ _ x)
      | _ => cases o <;> simp_all [Op.gives, Call.changes, Origin.own]
    · exact ((C124_only_own_places c s s' o k h).2.2 _ hm).1.symm
  | newBlock dt => simp only [exec, Except.ok.injEq] at h; subst h; rfl
  | mint a n =>
    simp only [exec, Except.ok.injEq] at h; subst h
    exact ((depositCreating_frame s.bal a n).1 x fun e => h2 e.symm).1.symm
  | slash a n =>
    simp only [exec, Except.ok.injEq] at h; subst h
    have : x ≠ a := fun e => h1 e.symm
    simp [upd_ne _ _ this]
  | setOtherLock a n => simp only [exec, Except.ok.injEq] at h; subst h; rfl
  | vest a => simp only [exec, Except.ok.injEq] at h; subst h; rfl
  | addVesting a v =>
    simp only [exec] at h
    split at h
    · rename_i b hb
      simp only [Except.ok.injEq] at h; subst h
      rcases Balances.addVesting_ok hb with ⟨_, rfl⟩ | ⟨_, _, _, rfl⟩ <;> rfl
    · cases h
  | setAsset i m => simp only [exec, Except.ok.injEq] at h; subst h; rfl
  | destroyAsset i => simp only [exec, Except.ok.injEq] at h; subst h; rfl

theorem canPay_kept {c : Cfg} {s s' : Chain} {op : Op} (h : exec c s op = .ok s') {src dst : AccountId} {v : Nat}
    (h0 : CanPay c s src dst v) (hn : ¬ HindersPayment op src dst) : CanPay c s' src dst v := by
  rcases h0 with h0 | h0 | ⟨h1, h2, h3, h4⟩
  · exact .inl h0
  · exact .inr (.inl h0)
  · obtain ⟨p1, p2⟩ := payer_kept h (fun e => hn (.inl e)) (fun e => hn (.inr (.inl e)))
    have p3 := receiver_kept h (fun e => hn (.inr (.inr (.inl e)))) (fun e => hn (.inr (.inr (.inr e))))
    refine .inr (.inr ⟨by omega, fun id hid => ?_, by omega, by omega⟩)
    have := p2 id
    obtain ⟨q1, q2⟩ := h2 id (by omega)
    omega

/-! ### Claims -/

theorem settles_of_authorised {c : Cfg} {s : Chain} {op : Op} {g : EthAddr} {d : AccountId} (h : Authorised c s op g d) :
    Settles c s op g d := by
  rcases h with ⟨sig, h1, h2, _⟩ | ⟨sig, st, h1, h2, _⟩ | ⟨st, h1, h2, _⟩
  · exact .inl ⟨_, sig, h1, h2⟩
  · exact .inr (.inl ⟨_, sig, st, h1, h2⟩)
  · exact .inr (.inr ⟨st, h1, h2⟩)

theorem moveEntry_ne {V : Type} {m : EthAddr → Option V} {old new g : EthAddr} (h1 : g ≠ old) (h2 : g ≠ new) :
    Claims.moveEntry m old new g = m g := by
  unfold Claims.moveEntry
  cases m old with
  | some v => simp only; rw [upd_ne _ _ h2, upd_ne _ _ h1]
  | none => rfl

theorem setSome_ne {V : Type} {m : EthAddr → Option V} {k g : EthAddr} {v : Option V} (h : g ≠ k) :
    Claims.setSome m k v g = m g := by
  unfold Claims.setSome
  cases v with
  | some v => simp only; rw [upd_ne _ _ h]
  | none => rfl

theorem claim_kept {c : Cfg} {s s' : Chain} {op : Op} (h : exec c s op = .ok s') {g : EthAddr} {dest : AccountId}
    (h0 : Payable c s g dest) (hn : ¬ HindersClaim c s op g dest) :
    Payable c s' g dest ∧ s'.cl.signing g = s.cl.signing g := by
  obtain ⟨⟨due, hd, ht⟩, hv⟩ := h0
  have fin : s'.cl.claims g = s.cl.claims g → s'.cl.vesting g = s.cl.vesting g → s'.cl.signing g = s.cl.signing g →
      due ≤ s'.cl.total → (s.cl.vesting g ≠ none → s.bal.schedules dest = [] → s'.bal.schedules dest = []) →
      Payable c s' g dest ∧ s'.cl.signing g = s.cl.signing g := by
    intro e1 e2 e3 e4 e5
    refine ⟨⟨⟨due, by rw [e1]; exact hd, e4⟩, fun v hv' => ?_⟩, e3⟩
    rw [e2] at hv'
    obtain ⟨h1, h2⟩ := hv v hv'
    exact ⟨e5 (by rw [hv']; simp) h1, h2⟩
  cases claims_effect h with
  | same hc hop =>
    refine fin (by rw [hc]) (by rw [hc]) (by rw [hc]) (by rw [hc]; exact ht) fun hvn hs => ?_
    cases vest_effect h dest with
    | same e _ => rw [e]; exact hs
    | updated extra he _ e _ =>
      rw [e, hs]
      by_cases hx : extra = []
      · subst hx; rfl
      · have := he hx
        cases op with
        | addVesting a v =>
          obtain rfl : a = dest := this
          exact absurd (.inr (.inr (.inr ⟨v, rfl, hvn⟩))) hn
        | ext o k =>
          cases k with
          | claims k => cases k <;> simp_all [Op.parts, Call.parts, Op.schedulesFor]
          | _ => exact absurd this (by simp [Op.schedulesFor])
        | _ => exact absurd this (by simp [Op.schedulesFor])
  | paid g' d' due' auth hc' ht' hp total claims vesting signing _ =>
    have hs := settles_of_authorised auth
    have hg : g ≠ g' := fun e => hn (.inl ⟨g', d', hs, .inl e.symm⟩)
    refine fin (by rw [claims, upd_ne _ _ hg]) (by rw [vesting, upd_ne _ _ hg]) (by rw [signing, upd_ne _ _ hg]) ?_ ?_
    · rw [total]
      have : ¬ s.cl.total < due + due' := fun hlt => hn (.inl ⟨g', d', hs, .inr (.inl ⟨due, due', hd, hc', hlt⟩)⟩)
      omega
    · intro hvn hsch
      by_cases hdd : dest = d'
      · subst hdd
        cases hv' : s.cl.vesting g' with
        | none =>
          unfold Claims.Paid at hp
          rw [hv'] at hp
          simp only at hp
          rw [hp, ← (depositCreating_frame s.bal dest due').2]
          exact hsch
        | some v => exact absurd (.inl ⟨g', dest, hs, .inr (.inr ⟨rfl, hvn, by rw [hv']; simp⟩)⟩) hn
      · rw [← (paid_frame hp dest hdd).2]; exact hsch
  | mint who v vest st hop total claims vesting signing _ _ =>
    have hg : g ≠ who := fun e => hn (.inr (.inl ⟨_, who, v, vest, st, hop, .inl e.symm⟩))
    have hfit : ¬ c.balMax < s.cl.total + v := fun e => hn (.inr (.inl ⟨_, who, v, vest, st, hop, .inr e⟩))
    have hb : s'.bal = s.bal := exec_frame h .currency (by rw [hop]; simp [Op.parts, Call.parts])
    refine fin (by rw [claims, upd_ne _ _ hg]) (by rw [vesting, setSome_ne hg]) (by rw [signing, setSome_ne hg]) ?_
      (fun _ e => by rw [hb]; exact e)
    rcases plainAdd_eq_ok.mp total with ⟨_, e⟩ | ⟨e, _⟩
    · omega
    · exact absurd e hfit
  | move o old new p hop _ hs =>
    have h1 : g ≠ old := fun e => hn (.inr (.inr (.inl ⟨o, old, new, p, hop, .inl e.symm⟩)))
    have h2 : g ≠ new := fun e => hn (.inr (.inr (.inl ⟨o, old, new, p, hop, .inr e.symm⟩)))
    subst hs
    exact fin (moveEntry_ne h1 h2) (moveEntry_ne h1 h2) (moveEntry_ne h1 h2) ht fun _ e => e

theorem preclaim_kept {c : Cfg} {s s' : Chain} {op : Op} (h : exec c s op = .ok s') {g : EthAddr} {a : AccountId}
    (h0 : s.cl.preclaims a = some g) (hn : ¬ HindersClaim c s op g a) : s'.cl.preclaims a = some g := by
  by_cases hp : Part.claims ∈ op.parts
  · cases op with
    | ext o k =>
      cases k with
      | claims k =>
        cases k with
        | claim d sig =>
          obtain ⟨_, _, _, _, hp⟩ := Claims.claim_ok.mp h
          obtain ⟨_, _, _, _, _, rfl⟩ := Claims.processClaim_ok.mp hp
          exact h0
        | claimAttest d sig st =>
          obtain ⟨_, _, _, _, hp⟩ := Claims.claimAttest_ok.mp h
          obtain ⟨_, _, _, _, _, rfl⟩ := Claims.processClaim_ok.mp hp
          exact h0
        | attest st =>
          obtain ⟨who, g', s1, rfl, hg', _, hp, rfl⟩ := Claims.attest_ok.mp h
          obtain ⟨_, _, _, _, _, rfl⟩ := Claims.processClaim_ok.mp hp
          have : a ≠ who := by
            rintro rfl
            exact hn (.inl ⟨g, a, .inr (.inr ⟨st, rfl, h0⟩), .inl rfl⟩)
          simp [upd_ne _ _ this, h0]
        | mintClaim =>
          cases claims_effect h with
          | mint _ _ _ _ _ _ _ _ _ e _ => rw [e]; exact h0
          | same hc _ => rw [hc]; exact h0
          | paid _ _ _ auth => simp [Authorised] at auth
          | move _ _ _ _ hop => simp at hop
        | moveClaim old new p =>
          obtain ⟨_, rfl⟩ := Claims.moveClaim_ok.mp h
          simp only [Claims.movedPreclaims]
          split
          · rename_i q
            split
            · rename_i hq
              have : a ≠ q := by
                rintro rfl
                rw [h0] at hq
                exact hn (.inr (.inr (.inl ⟨_, _, _, _, rfl, .inl (Option.some.inj hq).symm⟩)))
              rw [upd_ne _ _ this]; exact h0
            · exact h0
          · exact h0
      | _ => simp [Op.parts, Call.parts] at hp
    | _ => simp [Op.parts] at hp
  · have e : s'.cl = s.cl := exec_frame h .claims hp
    rw [e]; exact h0

/-! ### All calls -/

theorem attested_kept {c : Cfg} {s s' : Chain} {op : Op} (h : exec c s op = .ok s') {a : AccountId} {proof : Bytes}
    {e : SgxEnclave} (h0 : Attested c s a proof e)
    (hf : ∀ skip debug, op ≠ .ext .root (.setSecurityFlags skip debug))
    (hb : (∀ p, e.method ≠ .skip p) → ∀ dt, op ≠ .newBlock dt)
    (hq : ∀ p, e.method = .dcap p → ∀ b i g ch, op ≠ .ext (.signed b) (.registerQuotingEnclave i g ch) ∧
      op ≠ .ext (.signed b) (.registerTcbInfo i g ch)) :
    s'.tx.allowDebug = s.tx.allowDebug ∧ ∃ e', e'.method = e.method ∧ e'.url = e.url ∧ e'.buildMode = e.buildMode ∧
      e'.reportData = e.reportData ∧ Attested c s' a proof e' := by
  have hfl : s'.tx.allowSkip = s.tx.allowSkip ∧ s'.tx.allowDebug = s.tx.allowDebug := by
    rcases flags_effect h with h1 | h1
    · exact h1
    · exact absurd h1 (hf _ _)
  refine ⟨hfl.2, ?_⟩
  cases hm : e.method with
  | ias =>
    have hnow := (clock_kept h (hb (by rw [hm]; simp))).1
    refine ⟨e, hm, rfl, rfl, rfl, ?_⟩
    unfold Attested at h0 ⊢
    rw [hm] at h0 ⊢
    simp only [hnow] at h0 ⊢
    exact h0
  | dcap p =>
    have hnow := (clock_kept h (hb (by rw [hm]; simp))).1
    refine ⟨e, hm, rfl, rfl, rfl, ?_⟩
    obtain ⟨hqe, htcb⟩ := collateral_effect h
    have h1 : s'.tx.qe = s.tx.qe := by
      rcases hqe with h1 | ⟨b, d, g, ch, rfl, _⟩
      · exact h1
      · exact absurd rfl (hq p hm b d g ch).1
    have h2 : ∀ f, s'.tx.tcb f = s.tx.tcb f := by
      intro f
      rcases htcb f with h1 | ⟨b, d, g, ch, _, rfl, _⟩
      · exact h1
      · exact absurd rfl (hq p hm b d g ch).2
    unfold Attested at h0 ⊢
    rw [hm] at h0 ⊢
    simp only [hnow, h1, h2] at h0 ⊢
    exact h0
  | skip p =>
    refine ⟨{ e with timestamp := s'.now }, hm, rfl, rfl, rfl, ?_⟩
    unfold Attested at h0 ⊢
    rw [hm] at h0
    simp only [hm, hfl.1] at h0 ⊢
    obtain ⟨h1, h2, h3, h4, h5, _, h7, h8⟩ := h0
    exact ⟨h1, h2, h3, h4, h5, trivial, h7, h8⟩

theorem proxied_kept {c : Cfg} {s s' : Chain} {op : Op} (h : exec c s op = .ok s') {p : EnclaveInstanceAddress}
    (h1 : ∀ proof url m, op ≠ .ext (.signed p.registrar) (.registerSgxEnclave proof url m))
    (h2 : ∀ b, op ≠ .ext (.signed b) (.unregisterProxiedEnclave p)) : s'.tx.proxied p = s.tx.proxied p := by
  rcases proxied_effect h p with h3 | ⟨_, _, _, _, rfl, _⟩ | ⟨_, _, rfl, _⟩
  · exact h3
  · exact absurd rfl (h1 _ _ _)
  · exact absurd rfl (h2 _)

theorem whitelisted_kept {c : Cfg} {s s' : Chain} {op : Op} (h : exec c s op = .ok s') {src : Bytes} {fp : Fingerprint}
    (h0 : fp ∈ s.orc.whitelist src) (hn : op ≠ .ext .root (.removeFromWhitelist src fp)) :
    fp ∈ s'.orc.whitelist src := by
  rcases whitelist_effect h src with h1 | ⟨fp', rfl, _, _, _, h1⟩ | ⟨fp', rfl, _, h1⟩
  · rw [h1]; exact h0
  · rw [h1]; exact List.mem_append_left _ h0
  · rw [h1]
    refine List.mem_filter.mpr ⟨h0, ?_⟩
    simp only [decide_eq_true_eq]
    rintro rfl
    exact hn rfl

theorem primary_back {c : Cfg} {s s' : Chain} {op : Op} (hs : StatusOk s) (h : exec c s op = .ok s') {shard : ShardId}
    {a : AccountId} (hn : ∀ b, op ≠ .ext .root (.purgeEnclave shard b)) (h1 : Primary s' shard a) :
    Primary s shard a := by
  obtain ⟨_, hnd, _⟩ := hs shard
  rcases status_effect h shard with h2 | ⟨b, k, e, rfl, _, h2, _⟩ | ⟨b, l, rfl, _⟩
  · unfold Primary statusOf at *; rw [h2] at h1; exact h1
  · have h4 : statusOf s' shard = touchList (statusOf s shard) ⟨b, e.mrEnclave, s.block⟩ := by
      unfold statusOf at *; rw [h2]; rfl
    have h5 := touchList_place (new := ⟨b, e.mrEnclave, s.block⟩) hnd
    rw [← h4] at h5
    unfold Primary at h1 ⊢
    rw [← List.head?_map, h5] at h1
    rw [← List.head?_map]
    rcases hl : statusOf s shard with _ | ⟨i, l⟩
    · exact .inl rfl
    · right
      rw [hl] at h5 h1
      have hne : statusOf s' shard ≠ [] := by
        intro e; rw [e] at h5; revert h5; simp only [List.map_cons]; split <;> simp
      rcases h1 with h1 | h1
      · exact absurd h1 hne
      · revert h1
        simp only [List.map_cons]
        split <;> simp
  · exact absurd rfl (hn b)

theorem accepts_kept {c : Cfg} {s s' : Chain} {op : Op} (hs : StatusOk s) (h : exec c s op = .ok s') {o : Origin}
    {k : Call} (h0 : Accepts c s o k) (hn : ¬ Hinders c s op o k) : Accepts c s' o k := by
  cases k with
  | bond v =>
    obtain ⟨a, rfl, h1, h2⟩ := h0
    exact ⟨a, rfl, noBond_kept h h1 fun v e => hn ⟨a, v, rfl, e⟩, h2⟩
  | bondExtra v =>
    obtain ⟨a, rfl, h1, h2, h3⟩ := h0
    have : ∀ v, op ≠ .ext (.signed a) (.unbond v) := fun v e => hn ⟨a, v, rfl, e⟩
    exact ⟨a, rfl, bonded_kept h h1 this, noPending_kept h h2 this, h3⟩
  | unbond v =>
    obtain ⟨a, rfl, h1, h2, h3, h4⟩ := h0
    have : ∀ v, op ≠ .ext (.signed a) (.unbond v) := fun v e => hn (.inl ⟨a, v, rfl, e⟩)
    refine ⟨a, rfl, bonded_kept h h1 this, noPending_kept h h2 this, h3, ?_⟩
    rcases clock_cases h with ⟨dt, rfl, rfl⟩ | ⟨_, h5, _⟩
    · exact .inl (Nat.le_of_not_lt fun hlt => hn (.inr ⟨dt, rfl, hlt⟩))
    · rw [h5]; exact h4
  | updateOther who =>
    obtain ⟨a, rfl, h1⟩ := h0
    exact ⟨a, rfl, bonded_kept h h1 fun v e => hn ⟨v, e⟩⟩
  | withdrawUnbonded =>
    obtain ⟨a, due, amount, rfl, h1, h2⟩ := h0
    exact ⟨a, due, amount, rfl, pending_kept h h1 fun e => hn ⟨a, rfl, e⟩, Nat.le_trans h2 (now_le h)⟩
  | registerSgxEnclave proof url m =>
    obtain ⟨a, e, rfl, h1, h2, h3, h4, h5, h6, h7⟩ := h0
    obtain ⟨d, e', g1, g2, g3, g4, g5⟩ := attested_kept h h5 (fun x y e => hn (.inl ⟨x, y, e⟩))
      (fun hm dt he => hn (.inr (.inl ⟨dt, he, fun p => by rw [← h3]; exact hm p⟩)))
      (fun p hp b i g ch => ⟨fun he => hn (.inr (.inr ⟨p, by rw [← h3]; exact hp, b, i, g, ch, .inl he⟩)),
        fun he => hn (.inr (.inr ⟨p, by rw [← h3]; exact hp, b, i, g, ch, .inr he⟩))⟩)
    exact ⟨a, e', rfl, h1, h2, g1.trans h3, g2.trans h4, g5, by rw [d, g3]; exact h6, by rw [g1, g4]; exact h7⟩
  | unregisterSovereignEnclave a =>
    obtain ⟨b, e, rfl, h1, h2⟩ := h0
    exact ⟨b, e, rfl, by rw [sovereign_kept h hn]; exact h1, Nat.lt_of_lt_of_le h2 (now_le h)⟩
  | unregisterProxiedEnclave p =>
    obtain ⟨b, e, rfl, h1, h2⟩ := h0
    exact ⟨b, e, rfl, by
      rw [proxied_kept h (fun x y z e => hn (.inl ⟨x, y, z, e⟩)) fun x e => hn (.inr ⟨x, e⟩)]; exact h1,
      Nat.lt_of_lt_of_le h2 (now_le h)⟩
  | registerQuotingEnclave i g ch =>
    have hc := clock_kept h fun dt e => hn ⟨dt, e⟩
    simp only [Accepts, hc.1] at h0 ⊢
    exact h0
  | registerTcbInfo i g ch =>
    have hc := clock_kept h fun dt e => hn ⟨dt, e⟩
    simp only [Accepts, hc.1] at h0 ⊢
    exact h0
  | setSecurityFlags => exact h0
  | invoke => exact h0
  | confirmProcessedParentchainBlock shard x y z =>
    obtain ⟨a, h1⟩ := h0
    exact ⟨a, mayAct_kept hs h h1 fun e => hn ⟨a, h1.1, e⟩⟩
  | shieldFunds shard inc v =>
    obtain ⟨a, rfl, h1⟩ := h0
    exact ⟨a, rfl, canPay_kept h h1 fun e => hn ⟨a, rfl, e⟩⟩
  | unshieldFunds shard ben v g =>
    obtain ⟨a, h1, h2⟩ := h0
    refine ⟨a, mayAct_kept hs h h1 fun e => hn ⟨a, h1.1, .inl e⟩, ?_⟩
    cases hx : s.br.executed g with
    | none =>
      rw [hx] at h2
      simp only at h2
      have h3 := canPay_kept h h2 fun e => hn ⟨a, h1.1, .inr (by rw [hx]; exact e)⟩
      rcases executed_effect h g with ⟨_, e⟩ | ⟨_, n, e, e'⟩
      · rw [e, hx]; exact h3
      · rw [e']
        rw [hx] at e
        left
        rcases plainAdd_eq_ok.mp e with ⟨_, e⟩ | ⟨e, _⟩ <;> simp_all [u64Max]
    | some n =>
      rw [hx] at h2
      simp only at h2
      rcases executed_effect h g with ⟨_, e⟩ | ⟨hop, m, e, e'⟩
      · rw [e, hx]; exact h2
      · rw [e']
        rw [hx] at e
        simp only [Option.getD_some] at e
        have hlt : n < 2 ^ 64 - 2 := by
          refine Nat.lt_of_not_le fun hle => hn ⟨a, h1.1, .inr ?_⟩
          rw [hx]
          refine ⟨hle, ?_⟩
          cases op with
          | ext o' k =>
            cases k with
            | unshieldFunds i d w g' =>
              obtain ⟨b, _, _, ⟨rfl, _⟩, _⟩ := unshieldFunds_ok.mp h
              simp only [Op.unshieldHash, Option.some.injEq] at hop
              subst hop
              exact ⟨b, i, d, w, rfl⟩
            | _ => simp [Op.unshieldHash] at hop
          | _ => simp [Op.unshieldHash] at hop
        left
        rcases plainAdd_eq_ok.mp e with ⟨_, e⟩ | ⟨e, _⟩
        · omega
        · simp only [u64Max] at e; omega
  | publishHash x topics data =>
    obtain ⟨a, e, rfl, h1, h2, h3⟩ := h0
    exact ⟨a, e, rfl, by rw [sovereign_kept h fun he => hn ⟨a, rfl, .inl he⟩]; exact h1,
      hasPlace_kept hs h h2 fun he => hn ⟨a, rfl, .inr ⟨e, h1, he⟩⟩, h3⟩
  | updateShardConfig shard cfg delay =>
    rcases h0 with rfl | ⟨a, e, rfl, h1, h2, h3⟩
    · exact .inl rfl
    · have hf := fingerprint_kept h (shard := shard) fun he => hn ⟨a, rfl, .inr (.inl he)⟩
      refine .inr ⟨a, e, rfl, by rw [sovereign_kept h fun he => hn ⟨a, rfl, .inl he⟩]; exact h1,
        hasPlace_kept hs h h2 fun he => hn ⟨a, rfl, .inr (.inr he)⟩, fun old hold => ?_⟩
      cases hc : configInEffect s shard s.block with
      | none => rw [hf.2.mpr hc] at hold; cases hold
      | some old' =>
        have h4 := hf.1
        unfold fingerprintInEffect at h4
        rw [hold, hc] at h4
        simp only at h4
        rw [h4]
        exact h3 old' hc
  | purgeEnclave shard a =>
    obtain ⟨rfl, h1⟩ := h0
    refine ⟨rfl, ?_⟩
    rcases status_effect h shard with h2 | ⟨_, _, _, _, _, h2, _⟩ | ⟨_, _, _, _, h2⟩
    · rw [h2]; exact h1
    · rw [h2]; simp
    · rw [h2]; simp
  | confirmImportedSidechainBlock shard anc cand =>
    obtain ⟨a, h1, h2⟩ := h0
    refine ⟨a, mayAct_kept hs h h1 fun e => hn ⟨a, h1.1, .inl e⟩, fun hp => ?_⟩
    have h3 := h2 (primary_back hs h (fun b e => hn ⟨a, h1.1, .inr (.inr ⟨b, e⟩)⟩) hp)
    rcases sc_effect h shard with ⟨_, h4⟩ | ⟨b, _, _, _, anc', cand', rfl, _⟩
    · unfold Follows at *; rw [h4]; exact h3
    · exact absurd ⟨a, h1.1, .inr (.inl ⟨b, anc', cand', rfl⟩)⟩ hn
  | addToWhitelist src fp =>
    obtain ⟨rfl, h1, h2, h3⟩ := h0
    refine ⟨rfl, h1, ?_⟩
    rcases whitelist_effect h src with h4 | ⟨fp', rfl, _⟩ | ⟨fp', rfl, _, h4⟩
    · rw [h4]; exact ⟨h2, h3⟩
    · exact absurd ⟨fp', rfl⟩ hn
    · rw [h4]
      exact ⟨fun hm => h2 (List.mem_filter.mp hm).1, Nat.lt_of_le_of_lt (List.length_filter_le _ _) h3⟩
  | removeFromWhitelist src fp =>
    obtain ⟨rfl, h1⟩ := h0
    exact ⟨rfl, whitelisted_kept h h1 hn⟩
  | updateOracle name src blob =>
    obtain ⟨a, e, rfl, h1, h2, h3⟩ := h0
    exact ⟨a, e, rfl, by rw [sovereign_kept h fun he => hn ⟨a, rfl, .inl he⟩]; exact h1,
      whitelisted_kept h h2 fun he => hn ⟨a, rfl, .inr ⟨e, h1, he⟩⟩, h3⟩
  | updateExchangeRate src pair r =>
    obtain ⟨a, e, rfl, h1, h2, h3⟩ := h0
    exact ⟨a, e, rfl, by rw [sovereign_kept h fun he => hn ⟨a, rfl, .inl he⟩]; exact h1,
      whitelisted_kept h h2 fun he => hn ⟨a, rfl, .inr ⟨e, h1, he⟩⟩, h3⟩
  | claims k =>
    cases k with
    | claim dest sig =>
      obtain ⟨rfl, g, h1, h2, h3⟩ := h0
      obtain ⟨h4, h5⟩ := claim_kept h h3 fun e => hn ⟨g, dest, .inl ⟨_, sig, rfl, h1⟩, e⟩
      exact ⟨rfl, g, h1, h5.trans h2, h4⟩
    | claimAttest dest sig st =>
      obtain ⟨rfl, g, h1, h2, h3⟩ := h0
      obtain ⟨h4, h5⟩ := claim_kept h h3 fun e => hn ⟨g, dest, .inr (.inl ⟨_, sig, st, rfl, h1⟩), e⟩
      exact ⟨rfl, g, h1, by unfold StatementOk at *; rw [h5]; exact h2, h4⟩
    | attest st =>
      obtain ⟨a, g, rfl, h1, h2, h3⟩ := h0
      have hn' : ¬ HindersClaim c s op g a := fun e => hn ⟨g, a, .inr (.inr ⟨st, rfl, h1⟩), e⟩
      obtain ⟨h4, h5⟩ := claim_kept h h3 hn'
      exact ⟨a, g, rfl, preclaim_kept h h1 hn', by unfold StatementOk at *; rw [h5]; exact h2, h4⟩
    | mintClaim who v vest st =>
      obtain ⟨rfl, h1⟩ := h0
      refine ⟨rfl, ?_⟩
      have mono : s'.cl.total ≤ s.cl.total → SumOk c c.balMax (s'.cl.total + v) := by
        intro hle
        rcases h1 with h1 | h1
        · exact .inl (by omega)
        · exact .inr h1
      cases claims_effect h with
      | same hc _ => exact mono (by rw [hc]; exact Nat.le_refl _)
      | paid _ _ _ _ _ _ _ total => exact mono (by omega)
      | mint who' v' vest' st' hop total =>
        have hfit : ¬ c.balMax < s.cl.total + v' + v := fun e => hn ⟨who', v', vest', st', hop, e⟩
        rcases plainAdd_eq_ok.mp total with ⟨_, e⟩ | ⟨e, _⟩
        · exact .inl (by omega)
        · omega
      | move _ _ _ _ _ _ hs => subst hs; exact h1
    | moveClaim => exact h0
  | registerReserveAsset id loc =>
    obtain ⟨h1, h2, h3, h4⟩ := h0
    have ha : s'.assets id ≠ none := by
      cases op with
      | setAsset i m =>
        simp only [exec, Except.ok.injEq] at h; subst h
        by_cases hi : id = i
        · subst hi; simp [upd_same]
        · simp [upd_ne _ _ hi, h2]
      | destroyAsset i =>
        simp only [exec, Except.ok.injEq] at h; subst h
        have hi : id ≠ i := by rintro rfl; exact hn (.inr rfl)
        simp [upd_ne _ _ hi, h2]
      | ext o' k =>
        have : s'.assets = s.assets := exec_frame h .assets (by cases k <;> (try rename_i k; cases k) <;> simp [Op.parts, Call.parts])
        rw [this]; exact h2
      | _ =>
        have : s'.assets = s.assets := exec_frame h .assets (by simp [Op.parts])
        rw [this]; exact h2
    refine ⟨h1, ha, ?_, h4⟩
    rcases registry_effect h with ⟨e, _⟩ | ⟨o', i, l, rfl, _, e, _⟩ | ⟨o', i, l, rfl, _, e, _⟩
    · rw [e]; exact h3
    · have hi : id ≠ i := by rintro rfl; exact hn (.inl ⟨o', l, rfl⟩)
      rw [e, upd_ne _ _ hi]; exact h3
    · rw [e]
      by_cases hi : id = i
      · subst hi; simp [upd_same]
      · rw [upd_ne _ _ hi]; exact h3
  | unregisterReserveAsset id =>
    obtain ⟨h1, h2⟩ := h0
    refine ⟨h1, ?_⟩
    rcases registry_effect h with ⟨e, _⟩ | ⟨o', i, l, rfl, _, e, _⟩ | ⟨o', i, l, rfl, _, e, _⟩
    · rw [e]; exact h2
    · rw [e]
      by_cases hi : id = i
      · subst hi; simp [upd_same]
      · rw [upd_ne _ _ hi]; exact h2
    · have hi : id ≠ i := by rintro rfl; exact hn ⟨o', rfl⟩
      rw [e, upd_ne _ _ hi]; exact h2
  | sendSwapUmp self other w fee =>
    have e : s'.xt = s.xt := by
      refine exec_frame h .xcm ?_
      cases op with
      | ext o' k =>
        cases k with
        | sendSwapUmp => exact absurd ⟨_, _, _, _, _, rfl⟩ hn
        | claims k => cases k <;> simp [Op.parts, Call.parts]
        | _ => simp [Op.parts, Call.parts]
      | _ => simp [Op.parts]
    simp only [Accepts, e] at h0 ⊢
    exact h0
  | balTransfer dst v =>
    obtain ⟨a, rfl, h1⟩ := h0
    exact ⟨a, rfl, canPay_kept h h1 fun e => hn ⟨a, rfl, e⟩⟩

/-- C161: a call that would succeed still succeeds after another operation, unless that operation is one of those
listed for the call. -/
theorem C161_only_these (c : Cfg) (s0 : Chain) (ops : List Op) (h0 : FreshBridge s0) (op : Op) (s' : Chain) (o : Origin)
    (k : Call) (hk : ∃ t, exec c (run c s0 ops) (.ext o k) = .ok t) (hop : exec c (run c s0 ops) op = .ok s')
    (hn : ¬ Hinders c (run c s0 ops) op o k) : ∃ t, exec c s' (.ext o k) = .ok t := by
  have hs := statusOk_run (c := c) (statusOk_fresh h0) ops
  exact (accepts_iff (statusOk_exec hs hop) o k).mpr (accepts_kept hs hop ((accepts_iff hs o k).mp hk) hn)

/-- Alice can unbond; Bob updates her bond in between. -/
example : ∃ s', (∃ t, exec cfg (run cfg start [.ext (.signed alice) (.bond 300)]) (.ext (.signed alice) (.unbond 100)) = .ok t) ∧
    exec cfg (run cfg start [.ext (.signed alice) (.bond 300)]) (.ext (.signed bob) (.updateOther alice)) = .ok s' ∧
    ¬ Hinders cfg (run cfg start [.ext (.signed alice) (.bond 300)]) (.ext (.signed bob) (.updateOther alice))
      (.signed alice) (.unbond 100) :=
  ⟨_, ⟨_, exec_ok_of_isOk (op := .ext (.signed alice) (.unbond 100)) (by decide +kernel)⟩,
    exec_ok_of_isOk (op := .ext (.signed bob) (.updateOther alice)) (by decide +kernel), by simp [Hinders]⟩

/-- C161: the same for any number of operations in between. Refused operations do not matter. -/
theorem C161_history (c : Cfg) (s0 : Chain) (ops between : List Op) (h0 : FreshBridge s0) (o : Origin) (k : Call)
    (hk : ∃ t, exec c (run c s0 ops) (.ext o k) = .ok t)
    (hn : ∀ p ∈ accepted c (run c s0 ops) between, ¬ Hinders c p.1 p.2 o k) :
    ∃ t, exec c (run c s0 (ops ++ between)) (.ext o k) = .ok t := by
  have hs := statusOk_run (c := c) (statusOk_fresh h0) ops
  rw [run_append]
  generalize run c s0 ops = s at *
  induction between generalizing s with
  | nil => exact hk
  | cons op between ih =>
    rw [run_cons]
    cases hop : exec c s op with
    | error e =>
      rw [step_of_error hop]
      rw [accepted_cons_error hop] at hn
      exact ih s hk hn hs
    | ok s1 =>
      rw [step_of_ok hop]
      rw [accepted_cons_ok hop] at hn
      refine ih s1 ?_ (fun p hp => hn p (List.mem_cons_of_mem _ hp)) (statusOk_exec hs hop)
      exact (accepts_iff (statusOk_exec hs hop) o k).mpr
        (accepts_kept hs hop ((accepts_iff hs o k).mp hk) (hn _ List.mem_cons_self))

/-- Alice's enclave can confirm; in between Bob shields money, updates are refused, blocks pass. -/
example : (∃ t, exec cfg (run cfg start [enroll alice 7]) (.ext (.signed alice)
      (.confirmProcessedParentchainBlock shard7 hash1 5 hash2)) = .ok t) ∧
    ∀ p ∈ accepted cfg (run cfg start [enroll alice 7]) [shield bob 100, .newBlock 6, shield bob 1000, .slash alice 900],
      ¬ Hinders cfg p.1 p.2 (.signed alice) (.confirmProcessedParentchainBlock shard7 hash1 5 hash2) := by
  refine ⟨⟨_, exec_ok_of_isOk (op := .ext (.signed alice) (.confirmProcessedParentchainBlock shard7 hash1 5 hash2))
    (by decide +kernel)⟩, ?_⟩
  have : (accepted cfg (run cfg start [enroll alice 7]) [shield bob 100, .newBlock 6, shield bob 1000, .slash alice 900]).all
      (fun p => decide (p.2 = shield bob 100 ∨ (p.2 = .newBlock 6 ∧ fingerprintInEffect p.1 shard7 (p.1.block + 1) =
        fingerprintInEffect p.1 shard7 p.1.block) ∨ p.2 = .slash alice 900)) = true := by decide +kernel
  intro p hp
  have h1 := of_decide_eq_true (List.all_eq_true.mp this p hp)
  rintro ⟨a, ha, h2 | h2 | ⟨b, k, h2, _, h3, _⟩⟩
  · rcases h1 with h1 | ⟨h1, _⟩ | h1 <;> simp [h1, Op.changesEnclave, shield] at h2
  · rcases h1 with h1 | ⟨h1, h4⟩ | h1
    · simp [Reconfigures, h1, shield] at h2
    · rcases h2 with ⟨_, _, _, h2⟩ | ⟨_, _, h2⟩
      · simp [h1] at h2
      · exact h2 h4
    · simp [Reconfigures, h1] at h2
  · rcases h1 with h1 | ⟨h1, _⟩ | h1
    · rw [h1] at h2
      simp only [shield, Op.ext.injEq] at h2
      obtain ⟨_, rfl⟩ := h2
      simp only [Call.changes, Origin.own, sending] at h3
      split at h3 <;> simp at h3
    · simp [h1] at h2
    · simp [h1] at h2

theorem accepted_mem {c : Cfg} {s : Chain} {ops : List Op} {p : Chain × Op} (h : p ∈ accepted c s ops) : p.2 ∈ ops := by
  induction ops generalizing s with
  | nil => cases h
  | cons op ops ih =>
    cases hop : exec c s op with
    | error e => rw [accepted_cons_error hop] at h; exact List.mem_cons_of_mem _ (ih h)
    | ok s1 =>
      rw [accepted_cons_ok hop] at h
      rcases List.mem_cons.mp h with rfl | h
      · exact List.mem_cons_self
      · exact List.mem_cons_of_mem _ (ih h)

/-- C161: nothing that anybody else does, and no passing of time, makes a teerdays call of an account fail that would
have succeeded (unless the clock overflows). `updateOther` is left out: it depends on the other account. -/
theorem C161_teerdays_own (c : Cfg) (s0 : Chain) (ops between : List Op) (h0 : FreshBridge s0) (a : AccountId) (k : Call)
    (hcall : (∃ v, k = .bond v) ∨ (∃ v, k = .bondExtra v) ∨ (∃ v, k = .unbond v) ∨ k = .withdrawUnbonded)
    (hk : ∃ t, exec c (run c s0 ops) (.ext (.signed a) k) = .ok t) (hother : ∀ op ∈ between, ∀ k', op ≠ .ext (.signed a) k')
    (hclock : ∀ p ∈ accepted c (run c s0 ops) between, ∀ dt, p.2 = .newBlock dt →
      p.1.now + dt + c.unlockPeriod ≤ c.momentMax) :
    ∃ t, exec c (run c s0 (ops ++ between)) (.ext (.signed a) k) = .ok t := by
  refine C161_history c s0 ops between h0 _ k hk fun p hp hh => ?_
  have hm : p.2 ∈ between := accepted_mem hp
  have hno := hother _ hm
  rcases hcall with ⟨v, rfl⟩ | ⟨v, rfl⟩ | ⟨v, rfl⟩ | rfl
  · obtain ⟨b, w, hb, e⟩ := hh; cases hb; exact hno _ e
  · obtain ⟨b, w, hb, e⟩ := hh; cases hb; exact hno _ e
  · rcases hh with ⟨b, w, hb, e⟩ | ⟨dt, e, hlt⟩
    · cases hb; exact hno _ e
    · have := hclock p hp dt e; omega
  · obtain ⟨b, hb, e⟩ := hh; cases hb; exact hno _ e

example : (∃ t, exec cfg (run cfg start [.ext (.signed alice) (.bond 300)]) (.ext (.signed alice) (.bondExtra 100)) = .ok t) ∧
    ∀ p ∈ accepted cfg (run cfg start [.ext (.signed alice) (.bond 300)]) [.slash alice 900, .newBlock 9,
      .ext (.signed bob) (.updateOther alice)], ∀ dt, p.2 = .newBlock dt → p.1.now + dt + cfg.unlockPeriod ≤ cfg.momentMax := by
  refine ⟨⟨_, exec_ok_of_isOk (op := .ext (.signed alice) (.bondExtra 100)) (by decide +kernel)⟩, fun p hp dt h => ?_⟩
  have : (accepted cfg (run cfg start [.ext (.signed alice) (.bond 300)]) [.slash alice 900, .newBlock 9,
      .ext (.signed bob) (.updateOther alice)]).all (fun p => decide (p.1.now + 9 + cfg.unlockPeriod ≤ cfg.momentMax ∧
        (p.2 = .slash alice 900 ∨ p.2 = .newBlock 9 ∨ p.2 = .ext (.signed bob) (.updateOther alice)))) = true := by
    decide +kernel
  obtain ⟨h1, h2⟩ := of_decide_eq_true (List.all_eq_true.mp this p hp)
  rcases h2 with h2 | h2 | h2 <;> rw [h2] at h <;> cases h
  exact h1

/-- A claim call settles one claim only. -/
theorem Settles.unique {c : Cfg} {s : Chain} {op : Op} {g g' : EthAddr} {d d' : AccountId} (h : Settles c s op g d)
    (h' : Settles c s op g' d') : g = g' ∧ d = d' := by
  rcases h with ⟨_, _, rfl, h⟩ | ⟨_, _, _, rfl, h⟩ | ⟨_, rfl, h⟩ <;>
    rcases h' with ⟨_, _, e, h'⟩ | ⟨_, _, _, e, h'⟩ | ⟨_, e, h'⟩ <;>
    simp only [Op.ext.injEq, Call.claims.injEq, ClaimsCall.claim.injEq, ClaimsCall.claimAttest.injEq, Origin.signed.injEq,
      ClaimsCall.attest.injEq, reduceCtorEq, and_false] at e
  · obtain ⟨_, rfl, rfl⟩ := e; exact ⟨h.unique h', rfl⟩
  · obtain ⟨_, rfl, rfl, rfl⟩ := e; exact ⟨h.unique h', rfl⟩
  · obtain ⟨rfl, _⟩ := e; rw [h] at h'; exact ⟨Option.some.inj h', rfl⟩

/-- C161: claims do not stand in each other's way: a claim that could be paid can still be paid after another address's
claim was paid to another account, as long as the total covers both. -/
theorem C161_claims_independent (c : Cfg) (s0 : Chain) (ops : List Op) (h0 : FreshBridge s0) (o : Origin) (k : ClaimsCall)
    (op : Op) (dest dest' : AccountId) (g g' : EthAddr) (due due' : Nat) (s' : Chain)
    (hg : Settles c (run c s0 ops) (.ext o (.claims k)) g dest) (hg' : Settles c (run c s0 ops) op g' dest')
    (hne : g ≠ g') (hd : dest ≠ dest')
    (h1 : (run c s0 ops).cl.claims g = some due) (h2 : (run c s0 ops).cl.claims g' = some due')
    (htot : due + due' ≤ (run c s0 ops).cl.total)
    (hk : ∃ t, exec c (run c s0 ops) (.ext o (.claims k)) = .ok t) (hop : exec c (run c s0 ops) op = .ok s') :
    ∃ t, exec c s' (.ext o (.claims k)) = .ok t := by
  refine C161_only_these c s0 ops h0 op s' _ _ hk hop ?_
  have key : ¬ ∃ g dest, Settles c (run c s0 ops) (.ext o (.claims k)) g dest ∧ HindersClaim c (run c s0 ops) op g dest := by
    rintro ⟨x, d, hx, hh⟩
    obtain ⟨rfl, rfl⟩ := hx.unique hg
    rcases hh with ⟨y, d', hy, hh⟩ | ⟨_, _, _, _, _, rfl, _⟩ | ⟨_, _, _, _, rfl, _⟩ | ⟨_, rfl, _⟩
    · obtain ⟨rfl, rfl⟩ := hy.unique hg'
      rcases hh with e | ⟨u, u', e1, e2, hlt⟩ | ⟨e, _⟩
      · exact hne e.symm
      · rw [h1] at e1; rw [h2] at e2; cases e1; cases e2; omega
      · exact hd e.symm
    · simp [Settles] at hg'
    · simp [Settles] at hg'
    · simp [Settles] at hg'
  cases k with
  | mintClaim => simp [Settles] at hg
  | moveClaim => simp [Settles] at hg
  | _ => exact key

/-- The claim of A to Carol, and Bob's attestation of the claim of B. -/
example : ∃ s', Settles cfg claimsStart (claimOp carol) ethA carol ∧
    Settles cfg claimsStart (attestOp bob .saft) ethB bob ∧ ethA ≠ ethB ∧ carol ≠ bob ∧
    claimsStart.cl.claims ethA = some 100 ∧ claimsStart.cl.claims ethB = some 200 ∧ 100 + 200 ≤ claimsStart.cl.total ∧
    (∃ t, exec cfg claimsStart (claimOp carol) = .ok t) ∧ exec cfg claimsStart (attestOp bob .saft) = .ok s' :=
  ⟨_, .inl ⟨_, _, rfl, (ethRecover_iff ..).mp (by decide +kernel)⟩, .inr (.inr ⟨_, rfl, by decide +kernel⟩),
    by decide, by decide, by decide +kernel, by decide +kernel, by decide +kernel,
    ⟨_, exec_ok_of_isOk (op := claimOp carol) (by decide +kernel)⟩,
    exec_ok_of_isOk (op := attestOp bob .saft) (by decide +kernel)⟩

/-! ### The list is not too long: what is listed can really happen -/

/-- The call would be accepted, the operation is accepted, and the call is refused afterwards. -/
def breaks (c : Cfg) (s : Chain) (op : Op) (o : Origin) (k : Call) : Bool :=
  (exec c s (.ext o k)).isOk && (exec c s op).isOk && !(exec c (step c s op) (.ext o k)).isOk

/-- C161: the operations listed in `Hinders` do make calls fail: a history for each group of calls. -/
theorem C161_possible :
    -- an own bond; unbonding; a time overflow; another withdrawal
    breaks cfg start (.ext (.signed alice) (.bond 100)) (.signed alice) (.bond 200) = true ∧
    breaks cfg (run cfg start [.ext (.signed alice) (.bond 300)]) (.ext (.signed alice) (.unbond 100)) (.signed alice)
      (.bondExtra 50) = true ∧
    breaks cfg (run cfg start [.ext (.signed alice) (.bond 300)]) (.ext (.signed alice) (.unbond 300)) (.signed bob)
      (.updateOther alice) = true ∧
    breaks { cfg with overflowChecks := true } (run cfg start [.ext (.signed alice) (.bond 300)]) (.newBlock (2 ^ 64 - 5500))
      (.signed alice) (.unbond 100) = true ∧
    breaks cfg (run cfg start [.ext (.signed alice) (.bond 300), .ext (.signed alice) (.unbond 100), .newBlock 1000])
      (.ext (.signed alice) .withdrawUnbonded) (.signed alice) .withdrawUnbonded = true ∧
    -- money: spent, slashed, locked, and a receiver that is emptied
    breaks cfg start (.ext (.signed alice) (.balTransfer bob 900)) (.signed alice) (.shieldFunds shard7 [] 200) = true ∧
    breaks cfg start (.slash alice 900) (.signed alice) (.balTransfer bob 200) = true ∧
    breaks cfg start (.ext (.signed alice) (.bond 900)) (.signed alice) (.balTransfer bob 200) = true ∧
    breaks cfg start (.setOtherLock alice 900) (.signed alice) (.balTransfer bob 200) = true ∧
    breaks cfg start (.slash bob 500) (.signed alice) (.balTransfer bob 5) = true ∧
    -- enclaves: flags, a deregistration, a new configuration, an upgrade coming into force
    breaks cfg start (.ext .root (.setSecurityFlags false false)) (.signed alice)
      (.registerSgxEnclave shard7.val none (.skip false)) = true ∧
    breaks cfg (run cfg start [enroll alice 7, .newBlock (10 ^ 12)]) (.ext (.signed bob) (.unregisterSovereignEnclave alice))
      (.signed alice) (.confirmProcessedParentchainBlock shard7 hash1 5 hash2) = true ∧
    breaks cfg (run cfg start [enroll alice 7]) (.ext .root (.updateShardConfig shard7 (config 8) 0)) (.signed alice)
      (.confirmProcessedParentchainBlock shard7 hash1 5 hash2) = true ∧
    breaks cfg (run cfg start [enroll alice 7, .ext .root (.updateShardConfig shard7 (config 7) 0),
      .ext .root (.updateShardConfig shard7 (config 8) 1)]) (.newBlock 6) (.signed alice)
      (.confirmProcessedParentchainBlock shard7 hash1 5 hash2) = true ∧
    -- a competing sidechain block
    breaks cfg (run cfg start [enroll alice 7]) (.ext (.signed alice) (.confirmImportedSidechainBlock shard7 none ⟨3, hash1⟩))
      (.signed alice) (.confirmImportedSidechainBlock shard7 none ⟨3, hash2⟩) = true ∧
    -- whitelists and assets
    breaks cfg (run cfg start [.ext .root (.addToWhitelist [1] shard7)]) (.ext .root (.removeFromWhitelist [1] shard7)) .root
      (.removeFromWhitelist [1] shard7) = true ∧
    breaks cfg (run cfg start [.ext .root (.addToWhitelist [1] shard7), enroll alice 7])
      (.ext .root (.removeFromWhitelist [1] shard7)) (.signed alice) (.updateOracle [2] [1] [3]) = true ∧
    breaks cfg (run cfg start [.setAsset 1 1]) (.destroyAsset 1) .root (.registerReserveAsset 1 locA) = true ∧
    breaks cfg (run cfg start [.setAsset 1 1, registerOp 1 locA]) (unregisterOp 1) .root (.unregisterReserveAsset 1) = true ∧
    -- claims: paid to somebody else, moved away, overwritten
    breaks cfg claimsStart (claimOp alice) .none (.claims (.claim bob anySig)) = true ∧
    breaks cfg claimsStart (moveOp .root ethA ethC none) .none (.claims (.claim bob anySig)) = true ∧
    breaks cfg claimsStart (mintOp ethA 5 none (some .saft)) .none (.claims (.claim bob anySig)) = true ∧
    -- the last place in the status of a shard
    breaks cfg (run cfg start (enroll alice 7 :: enroll bob 7 :: (List.range 9).flatMap fun i =>
        [enroll (Arr.fill 32 (UInt8.ofNat (i + 10))) 7, .ext (.signed (Arr.fill 32 (UInt8.ofNat (i + 10))))
          (.confirmProcessedParentchainBlock shard7 hash1 5 hash2)]))
      (.ext (.signed bob) (.confirmProcessedParentchainBlock shard7 hash1 5 hash2)) (.signed alice)
      (.confirmProcessedParentchainBlock shard7 hash1 5 hash2) = true := by
  decide +kernel

end Verif
