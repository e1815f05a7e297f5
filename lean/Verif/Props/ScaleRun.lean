import Verif.Props.Scale
import Verif.Proofs.Json
import Verif.Props.Sidechain
import Verif.Props.Teeracle
import Verif.Props.Xcm
import Verif.Proofs.ClaimsInv
import Verif.Proofs.TeerexInv
import Verif.Proofs.TeerdaysInv
import Verif.Spec.DemoBridge

/-!
# C119: everything in storage stays in range
-/

namespace Verif
open Scale EnclaveBridge Teeracle Claims

/-! ### Numbers -/

theorem Fits.number.mono {n a b : Nat} (h : Fits.number n b) (hab : a ≤ b) : Fits.number n a :=
  Nat.lt_of_le_of_lt hab h

theorem Fits.number.wider {m n a : Nat} (h : Fits.number m a) (hmn : m ≤ n) : Fits.number n a :=
  Nat.lt_of_lt_of_le h (Nat.pow_le_pow_right (by decide) (Nat.mul_le_mul_left 8 hmn))

theorem satAdd_fits {n m a b : Nat} (h : Fits.number n m) : Fits.number n (satAdd m a b) :=
  h.mono (Nat.min_le_right _ _)

theorem plainAdd_range {c : Cfg} {n m a b r : Nat} (h : Fits.number n m) (ha : plainAdd c m a b = .ok r) :
    Fits.number n r := by
  rcases plainAdd_eq_ok.mp ha with ⟨h1, rfl⟩ | ⟨_, _, rfl⟩
  · exact h.mono h1
  · exact h.mono (Nat.le_of_lt_succ (Nat.mod_lt _ (Nat.succ_pos _)))

/-! ### Documents -/

theorem Json.uint_le {m n : Nat} {j : Json} (h : Json.uint m j = some n) : n ≤ m := by
  unfold Json.uint at h
  split at h
  · split at h
    · cases h; omega
    · simp at h
  · simp at h

theorem Json.req_eq {α : Type} {f : Json → Option α} {o : Option Json} {a : α} (h : Json.req f o = some a) :
    ∃ j, o = some j ∧ f j = some a := Option.bind_eq_some_iff.mp h

theorem Json.vec_forall {α : Type} {f : Json → Option α} {P : α → Prop} (hf : ∀ j a, f j = some a → P a) {j : Json}
    {l : List α} (h : Json.vec f j = some l) : ∀ a ∈ l, P a := by
  unfold Json.vec at h
  split at h
  · intro a ha
    have hm := (mapM_some_iff _ _ _).mp h
    have : some a ∈ l.map some := List.mem_map_of_mem ha
    rw [← hm] at this
    obtain ⟨j, _, hj⟩ := List.mem_map.mp this
    exact hf _ _ hj
  · simp at h

theorem qeTcb_le {j : Json} {n : Nat} (h : qeTcbOfJson j = some n) : n ≤ 65535 := by
  obtain ⟨r, hr, h⟩ := Option.bind_eq_some_iff.mp h
  split at h
  · obtain ⟨k, _, hk⟩ := Json.req_eq h
    exact Json.uint_le hk
  · simp at h

theorem qeLevel_le {date : String → Option Int} {j : Json} {l : QeTcbLevel} (h : QeTcbLevel.ofJson date j = some l) :
    l.isvsvn ≤ 65535 := by
  obtain ⟨r, hr, h⟩ := Option.bind_eq_some_iff.mp h
  split at h
  · simp only [Option.bind_eq_bind, Option.bind_eq_some_iff, Option.some.injEq] at h
    obtain ⟨n, h1, _, _, _, _, _, _, rfl⟩ := h
    obtain ⟨k, _, hk⟩ := Json.req_eq h1
    exact qeTcb_le hk
  · simp at h

theorem dateField_some {date : String → Option Int} {j : Json} {d : Int} (h : dateField date j = some d) :
    ∃ t, date t = some d := by
  obtain ⟨t, _, h⟩ := Option.bind_eq_some_iff.mp h
  exact ⟨t, h⟩

theorem identity_fits {date : String → Option Int} {j : Json} {i : EnclaveIdentity}
    (h : EnclaveIdentity.ofJson date j = some i) :
    (∃ t, date t = some i.issueDate) ∧ (∃ t, date t = some i.nextUpdate) ∧ i.isvprodid ≤ 65535 ∧
      ∀ l ∈ i.tcbLevels, l.isvsvn ≤ 65535 := by
  obtain ⟨r, hr, h⟩ := Option.bind_eq_some_iff.mp h
  split at h
  · simp only [Option.bind_eq_bind, Option.bind_eq_some_iff, Option.some.injEq] at h
    obtain ⟨_, _, _, _, d1, h1, d2, h2, _, _, _, _, _, _, _, _, _, _, _, _, n, h3, l, h4, rfl⟩ := h
    obtain ⟨_, _, h1⟩ := Json.req_eq h1
    obtain ⟨_, _, h2⟩ := Json.req_eq h2
    obtain ⟨_, _, h3⟩ := Json.req_eq h3
    obtain ⟨_, _, h4⟩ := Json.req_eq h4
    exact ⟨dateField_some h1, dateField_some h2, Json.uint_le h3, Json.vec_forall (fun _ _ => qeLevel_le) h4⟩
  · simp at h

theorem tcbFull_le {j : Json} {p : { l : List TcbComponent // l.length = 16 } × Nat} (h : tcbFullOfJson j = some p) :
    p.2 ≤ 65535 := by
  obtain ⟨r, hr, h⟩ := Option.bind_eq_some_iff.mp h
  split at h
  · simp only [Option.bind_eq_bind, Option.bind_eq_some_iff, Option.some.injEq] at h
    obtain ⟨_, _, n, h1, rfl⟩ := h
    obtain ⟨k, _, hk⟩ := Json.req_eq h1
    exact Json.uint_le hk
  · simp at h

theorem tcbLevel_le {date : String → Option Int} {j : Json} {l : TcbLevelFull}
    (h : TcbLevelFull.ofJson date j = some l) : l.pcesvn ≤ 65535 := by
  obtain ⟨r, hr, h⟩ := Option.bind_eq_some_iff.mp h
  split at h
  · simp only [Option.bind_eq_bind, Option.bind_eq_some_iff, Option.some.injEq] at h
    obtain ⟨⟨c, n⟩, h1, _, _, _, _, _, _, rfl⟩ := h
    obtain ⟨k, _, hk⟩ := Json.req_eq h1
    exact tcbFull_le hk
  · simp at h

theorem tcbInfo_fits {date : String → Option Int} {j : Json} {i : TcbInfo} (h : TcbInfo.ofJson date j = some i) :
    (∃ t, date t = some i.issueDate) ∧ (∃ t, date t = some i.nextUpdate) ∧ ∀ l ∈ i.tcbLevels, l.pcesvn ≤ 65535 := by
  obtain ⟨r, hr, h⟩ := Option.bind_eq_some_iff.mp h
  split at h
  · simp only [Option.bind_eq_bind, Option.bind_eq_some_iff, Option.some.injEq] at h
    obtain ⟨_, _, _, _, d1, h1, d2, h2, _, _, _, _, _, _, _, _, l, h4, rfl⟩ := h
    obtain ⟨_, _, h1⟩ := Json.req_eq h1
    obtain ⟨_, _, h2⟩ := Json.req_eq h2
    obtain ⟨_, _, h4⟩ := Json.req_eq h4
    exact ⟨dateField_some h1, dateField_some h2, Json.vec_forall (fun _ _ => tcbLevel_le) h4⟩
  · simp at h

theorem signedIdentity_fits {c : Cfg} {now : Nat} {d g ch : Bytes} {q : SgxQuotingEnclave} (hx : Fits.Parsers c.ext)
    (h : SignedIdentity c now d g ch q) : Fits.quotingEnclave q := by
  obtain ⟨_, _, _, _, p, _, _, _, _, _, hp, _, _, _, _, h1, h2, _, _, _, _, _, h3, h4⟩ := h
  obtain ⟨j, _, hj⟩ := Option.bind_eq_some_iff.mp hp
  obtain ⟨⟨t1, f1⟩, ⟨t2, f2⟩, f3, f4⟩ := identity_fits hj
  have g1 := hx.dates _ _ f1
  have g2 := hx.dates _ _ f2
  have g3 := hx.identity _ _ hp
  refine ⟨?_, ?_, ?_, ?_, ?_⟩
  · simp only [Fits.number]; omega
  · simp only [Fits.number]; omega
  · simp only [Fits.number]; omega
  · rw [h4]; simpa [Fits.vector] using g3
  · intro v hv
    rw [h4] at hv
    obtain ⟨l, hl, rfl⟩ := List.mem_map.mp hv
    have := f4 l hl
    simp only [Fits.number]; omega

theorem signedTcbInfo_fits {c : Cfg} {now : Nat} {d g ch : Bytes} {f : Fmspc} {q : SgxTcbInfoOnChain}
    (hx : Fits.Parsers c.ext) (h : SignedTcbInfo c now d g ch f q) : Fits.tcbInfo q := by
  obtain ⟨_, _, _, _, p, _, _, _, _, _, hp, _, _, _, _, _, h1, h2, h3, h4⟩ := h
  obtain ⟨j, _, hj⟩ := Option.bind_eq_some_iff.mp hp
  obtain ⟨⟨t1, f1⟩, ⟨t2, f2⟩, f3⟩ := tcbInfo_fits hj
  have g1 := hx.dates _ _ f1
  have g2 := hx.dates _ _ f2
  have g3 := hx.tcbInfo _ _ hp
  refine ⟨?_, ?_, ?_, ?_⟩
  · simp only [Fits.number]; omega
  · simp only [Fits.number]; omega
  · simp only [Fits.vector] at *; omega
  · intro v hv
    obtain ⟨k, hk, rfl⟩ := List.getElem_of_mem hv
    obtain ⟨_, e, _⟩ := h4 k hk (h3 ▸ hk)
    have := f3 _ (List.getElem_mem (h3 ▸ hk))
    simp only [Fits.number]; omega

/-! ### Steps -/

variable {c : Cfg} {w : Widths} {loc : Location → Prop} {s s' : Chain} {op : Op}

theorem attested_fits {a : AccountId} {proof : Bytes} {e : SgxEnclave} (hc : Fits.Config w c)
    (hn : Fits.number w.moment s.now) (h : Attested c s a proof e) : Fits.number 8 e.timestamp := by
  have h8 := hn.wider hc.momentU64
  unfold Attested at h
  split at h
  · obtain ⟨r, _, hr, _, ht, _⟩ := h
    rw [hr.2.2.2.1]
    exact h8.mono ht
  · obtain ⟨f, t, r, i, hq, hr, _⟩ := h
    rw [hr.2.2.2.1, hq.timestamp]
    exact h8
  · rw [h.2.2.2.2.2.1]
    exact h8

theorem td_fits (hc : Fits.Config w c) (hn : Fits.number w.moment s.now) (hq : Fits.op w c.maxBlob loc op)
    (hs : Fits.storage w c.maxBlob loc s) (h : exec c s op = .ok s') (a : AccountId) :
    (∀ b, s'.td.bonds a = some b → Fits.bond w b) ∧ ∀ p, s'.td.pending a = some p → Fits.pending w p := by
  have hv1 : s'.td.bonds a = (tdView s' a).bond := rfl
  have hv2 : s'.td.pending a = (tdView s' a).pending := rfl
  have upd : ∀ b, s.td.bonds a = some b → Fits.bond w (b.update c.balMax s.now) := fun b hb =>
    ⟨(hs.bonds a b hb).1, hn, satAdd_fits hc.bal⟩
  rw [hv1, hv2]
  cases tdEffect h a with
  | same h hv => rw [hv]; exact ⟨hs.bonds a, hs.pending a⟩
  | updated _ hb hv =>
    rw [hv]
    exact ⟨fun b hb' => by cases hb'; exact upd _ hb, hs.pending a⟩
  | bond _ _ hb _ hv =>
    rw [hv]
    refine ⟨fun b hb' => ?_, hs.pending a⟩
    cases hb'
    exact ⟨Fits.number.mono hq (Nat.min_le_left _ _), hn, Nat.two_pow_pos _⟩
  | extra _ _ hb _ _ hnew hv =>
    rw [hv]
    refine ⟨fun b hb' => ?_, fun p hp => by simp at hp⟩
    cases hb'
    exact ⟨hnew ▸ satAdd_fits hc.bal, (upd _ hb).2⟩
  | @unbond v due left b _ _ hb _ _ hd hleft hv =>
    rw [hv]
    have hval := (hs.bonds a b hb).1
    refine ⟨fun b' hb' => ?_, fun p hp => ?_⟩
    · dsimp only at hb'
      split at hb'
      · simp at hb'
      · cases hb'
        refine ⟨hval.mono (Nat.sub_le _ _), hn, ?_⟩
        rw [hleft]
        exact (upd b hb).2.2.mono (leftTokentime_le _ _ (by simp [Bond.update]))
    · cases hp
      exact ⟨plainAdd_range hc.moment hd, hval.mono (Nat.sub_le _ _)⟩
  | withdraw _ _ _ _ hv =>
    rw [hv]
    exact ⟨hs.bonds a, fun p hp => by simp at hp⟩

theorem enclave_fits {u : Option Bytes} {e : SgxEnclave} (he : e.url = u) (h8 : Fits.number 8 e.timestamp)
    (hu : ∀ x, u = some x → x.length ≤ 256) : Fits.enclave e := by
  refine ⟨h8, fun x hx => ?_⟩
  have := hu x (he ▸ hx)
  simp only [Fits.vector]; omega

theorem tx_fits (hc : Fits.Config w c) (hx : Fits.Parsers c.ext) (hn : Fits.number w.moment s.now)
    (hs : Fits.storage w c.maxBlob loc s) (h : exec c s op = .ok s') :
    (∀ a e, s'.tx.sovereign a = some e → Fits.enclave e) ∧
      (∀ a e, s'.tx.proxied a = some e → Fits.address a ∧ Fits.enclave e) ∧
      Fits.quotingEnclave s'.tx.qe ∧ ∀ f t, s'.tx.tcb f = some t → Fits.tcbInfo t := by
  refine ⟨fun a e he => ?_, fun a e he => ?_, ?_, fun f t ht => ?_⟩
  · rcases sovereign_effect h a with hr | ⟨_, _, _, e', _, _, hu, _, hl, hat, _, _, _, hr⟩ | ⟨_, _, _, _, _, hr⟩
    · exact hs.sovereign a e (hr ▸ he)
    · rw [hr] at he; cases he
      exact enclave_fits hu (attested_fits hc hn hat) hl
    · rw [hr] at he; simp at he
  · rcases proxied_effect h a with hr | ⟨_, _, _, e', _, _, hu, _, hl, hat, _, _, _, hg, hr⟩ | ⟨_, _, _, _, _, hr⟩
    · exact hs.proxied a e (hr ▸ he)
    · rw [hr] at he; cases he
      refine ⟨fun b hb => ?_, enclave_fits hu (attested_fits hc hn hat) hl⟩
      rw [hg] at hb; cases hb
      simp [e.reportData.property]
    · rw [hr] at he; simp at he
  · rcases (collateral_effect h).1 with hr | ⟨_, _, _, _, _, hr⟩
    · rw [hr]; exact hs.quotingEnclave
    · exact signedIdentity_fits hx hr
  · rcases (collateral_effect h).2 f with hr | ⟨_, _, _, _, i, _, hi, hr⟩
    · exact hs.tcbInfo f t (hr ▸ ht)
    · rw [hi] at ht; cases ht
      exact signedTcbInfo_fits hx hr

theorem applyDue_fits {u : UpgradableShardConfig} {b : Nat} (h : Fits.upgradable w u) :
    Fits.upgradable w (applyDue b u) := by
  unfold applyDue
  split
  · rename_i p t hp ht
    split
    · exact ⟨h.2.1 p hp, by simp [UpgradableShardConfig.ofConfig], by simp [UpgradableShardConfig.ofConfig]⟩
    · exact h
  · exact h

theorem configInEffect_fits {i : ShardId} {b : Nat} {old : ShardConfig} (hs : Fits.storage w c.maxBlob loc s)
    (h : configInEffect s i b = some old) : Fits.shardConfig old := by
  unfold configInEffect at h
  cases hu : s.br.config i with
  | none => simp [hu] at h
  | some u =>
    have hf := hs.config i u hu
    simp only [hu, Option.map_some, Option.some.injEq] at h
    subst h
    unfold UpgradableShardConfig.inEffect
    split
    · split
      · exact hf.2.1 _ (by assumption)
      · exact hf.1
    · exact hf.1

theorem mem_touchList_cases {l : List SignerStatus} {new t : SignerStatus} (h : t ∈ touchList l new) : t = new ∨ t ∈ l := by
  unfold touchList at h
  split at h
  · rcases List.mem_or_eq_of_mem_set h with h | h
    · exact .inr h
    · exact .inl h
  · simpa [or_comm] using h

theorem br_fits (hc : Fits.Config w c) (hb : Fits.number w.block s.block) (hq : Fits.op w c.maxBlob loc op)
    (hs : Fits.storage w c.maxBlob loc s) (h : exec c s op = .ok s') :
    (∀ i l, s'.br.status i = some l → Fits.shardStatus w l) ∧
      (∀ i u, s'.br.config i = some u → Fits.upgradable w u) ∧
      ∀ x n, s'.br.executed x = some n → Fits.number 8 n := by
  refine ⟨fun i l hl => ?_, fun i u hu => ?_, fun x n hx => ?_⟩
  · rcases status_effect h i with hr | ⟨a, k, e, _, _, hr, hlen⟩ | ⟨a, l', _, hl', hr⟩
    · exact hs.status i l (hr ▸ hl)
    · rw [hr] at hl; cases hl
      refine ⟨hlen, fun t ht => ?_⟩
      rcases mem_touchList_cases ht with rfl | ht
      · exact hb
      · cases hi : s.br.status i with
        | none => simp [statusOf, hi] at ht
        | some l =>
          simp only [statusOf, hi, Option.getD_some] at ht
          exact (hs.status i l hi).2 t ht
    · rw [hr] at hl; cases hl
      have := hs.status i l' hl'
      exact ⟨Nat.le_trans (List.length_filter_le _ _) this.1, fun t ht => this.2 t ((List.mem_filter.mp ht).1)⟩
  · rcases config_effect h i with hr | hr | ⟨o, cfg, delay, rfl, hr, _⟩
    · exact hs.config i u (hr ▸ hu)
    · rw [hr] at hu
      obtain ⟨u', hu', rfl⟩ := Option.map_eq_some_iff.mp hu
      exact applyDue_fits (hs.config i u' hu')
    · rw [hr] at hu; cases hu
      unfold newConfig
      split
      · rename_i old hold
        exact ⟨configInEffect_fits hs hold, fun p hp => by cases hp; exact hq.1,
          fun n hn => by cases hn; exact satAdd_fits hc.block⟩
      · exact ⟨hq.1, by simp, by simp⟩
  · rcases executed_effect h x with ⟨_, hr⟩ | ⟨_, m, hm, hr⟩
    · exact hs.executed x n (hr ▸ hx)
    · rw [hr] at hx; cases hx
      exact plainAdd_range (by decide) hm

theorem rest_fits (hc : Fits.Config w c) (hq : Fits.op w c.maxBlob loc op)
    (hs : Fits.storage w c.maxBlob loc s) (h : exec c s op = .ok s') :
    (∀ i b, s'.sc.latest i = some b → Fits.confirmation b) ∧
      (∀ p o r, s'.orc.rates p o = some r → Fits.vector p ∧ Fits.vector o ∧ Fits.number 8 r) ∧
      (∀ n o b, s'.orc.blobs n o = some b → Fits.vector n ∧ Fits.vector o ∧ Fits.vector b ∧ b.length ≤ c.maxBlob) ∧
      (∀ o, s'.orc.whitelist o ≠ [] → Fits.vector o ∧ Fits.vector (s'.orc.whitelist o)) ∧
      (∀ i l, s'.ar.idLoc i = some l → Fits.number w.asset i ∧ loc l) ∧
      ∀ l i, s'.ar.locId l = some i → Fits.number w.asset i ∧ loc l := by
  refine ⟨fun i b hb => ?_, fun p o r hr => ?_, fun n o b hb => ?_, fun o ho => ?_, fun i l hl => ?_,
    fun l i hl => ?_⟩
  · rcases sc_effect h i with ⟨_, hr⟩ | ⟨_, _, _, _, anc, cand, rfl, _, _, _, _, _, _, hr⟩
    · exact hs.latest i b (hr ▸ hb)
    · rw [hr] at hb; cases hb
      exact hq.2
  · rcases rates_effect h p o with hr' | ⟨a, r', rfl, _, _, hr'⟩
    · exact hs.rates p o r (hr' ▸ hr)
    · rw [hr'] at hr
      refine ⟨hq.2.1, hq.1, ?_⟩
      unfold storedRate at hr
      split at hr
      · cases hr; exact hq.2.2 _ rfl
      · simp at hr
  · rcases blobs_effect h n o with hr | ⟨a, b', rfl, _, _, _, _, hr⟩
    · exact hs.blobs n o b (hr ▸ hb)
    · rw [hr] at hb; cases hb
      exact hq
  · rcases whitelist_effect h o with hr | ⟨fp, rfl, _, _, hlt, hr⟩ | ⟨fp, rfl, hmem, hr⟩
    · rw [hr] at ho ⊢
      exact hs.whitelist o ho
    · refine ⟨hq, ?_⟩
      rw [hr]
      have := hc.whitelist
      simp only [Fits.vector, Fits.number, List.length_append, List.length_singleton] at *
      omega
    · refine ⟨hq, ?_⟩
      rw [hr]
      have := (hs.whitelist o (List.ne_nil_of_mem hmem)).2
      exact Nat.lt_of_le_of_lt (List.length_filter_le _ _) this
  · rcases registry_effect h with ⟨hr, _⟩ | ⟨o, id, l', rfl, _, hr, _⟩ | ⟨o, id, l', rfl, _, hr, _⟩
    · exact hs.idLoc i l (hr ▸ hl)
    · rw [hr, upd_apply] at hl
      split at hl
      · rename_i e; cases hl; rw [e]; exact hq
      · exact hs.idLoc i l hl
    · rw [hr, upd_apply] at hl
      split at hl
      · simp at hl
      · exact hs.idLoc i l hl
  · rcases registry_effect h with ⟨hr, _⟩ | ⟨o, id, l', rfl, _, _, hr⟩ | ⟨o, id, l', rfl, _, _, hr⟩
    · exact hs.locId l i (hr ▸ hl)
    · rw [hr, upd_apply] at hl
      split at hl
      · rename_i e; cases hl; rw [e]; exact hq
      · exact hs.locId l i hl
    · rw [hr, upd_apply] at hl
      split at hl
      · simp at hl
      · exact hs.locId l i hl

theorem upd_none {K V : Type} [DecidableEq K] {P : V → Prop} {m : K → Option V} {k : K}
    (hm : ∀ x v, m x = some v → P v) (x : K) (v : V) (h : upd m k none x = some v) : P v := by
  rw [upd_apply] at h
  split at h
  · simp at h
  · exact hm x v h

theorem upd_some {K V : Type} [DecidableEq K] {P : V → Prop} {m : K → Option V} {k : K} {u : V}
    (hm : ∀ x v, m x = some v → P v) (hu : P u) (x : K) (v : V) (h : upd m k (some u) x = some v) : P v := by
  rw [upd_apply] at h
  split at h
  · cases h; exact hu
  · exact hm x v h

theorem moved_all {V : Type} {P : V → Prop} {m : EthAddr → Option V} {a b : EthAddr}
    (hm : ∀ x v, m x = some v → P v) (x : EthAddr) (v : V) (h : moveEntry m a b x = some v) : P v := by
  rw [moveEntry_apply] at h
  split at h
  · exact hm x v h
  · split at h
    · cases ha : m a with
      | some u => rw [ha] at h; cases h; exact hm a _ ha
      | none => rw [ha] at h; exact hm b v h
    · split at h
      · simp at h
      · exact hm x v h

theorem cl_fits (hc : Fits.Config w c) (hq : Fits.op w c.maxBlob loc op)
    (hs : Fits.storage w c.maxBlob loc s) (h : exec c s op = .ok s') :
    (∀ a v, s'.cl.claims a = some v → Fits.number w.bal v) ∧ Fits.number w.bal s'.cl.total ∧
      ∀ a v, s'.cl.vesting a = some v → Fits.vesting w v := by
  cases claims_effect h with
  | same h => rw [h]; exact ⟨hs.claims, hs.total, hs.vesting⟩
  | paid g dest due auth hg ht hp total claims vesting =>
    rw [total, claims, vesting]
    exact ⟨upd_none hs.claims, hs.total.mono (Nat.sub_le _ _), upd_none hs.vesting⟩
  | mint who v vest st hop total claims vesting =>
    subst hop
    rw [claims, vesting]
    refine ⟨upd_some hs.claims hq.1, plainAdd_range hc.bal total, ?_⟩
    cases vest with
    | none => exact hs.vesting
    | some x => exact upd_some hs.vesting (hq.2 x rfl)
  | move o old new p hop auth hs' =>
    subst hs'
    exact ⟨moved_all hs.claims, hs.total, moved_all hs.vesting⟩

theorem storage_fits (hc : Fits.Config w c) (hx : Fits.Parsers c.ext) (hn : Fits.number w.moment s.now)
    (hb : Fits.number w.block s.block) (hq : Fits.op w c.maxBlob loc op)
    (hs : Fits.storage w c.maxBlob loc s) (h : exec c s op = .ok s') : Fits.storage w c.maxBlob loc s' := by
  have h1 := td_fits hc hn hq hs h
  have h2 := tx_fits hc hx hn hs h
  have h3 := br_fits hc hb hq hs h
  have h4 := rest_fits hc hq hs h
  have h5 := cl_fits hc hq hs h
  exact ⟨fun a => (h1 a).1, fun a => (h1 a).2, h2.1, h2.2.1, h2.2.2.1, h2.2.2.2, h3.1, h3.2.1, h3.2.2, h4.1, h4.2.1,
    h4.2.2.1, h4.2.2.2.1, h5.1, h5.2.1, h5.2.2, h4.2.2.2.2.1, h4.2.2.2.2.2⟩

/-! ### C119 -/

/-- C119: as long as the clock and the block number are in range, everything in storage is: no call, whatever its
arguments (in range, as every decoded call is, see C117), origin and order, stores a number that its Rust type cannot
hold, a list that is too long, or a key that is. The types of the runtime have the given widths, external parsers
return values of their types, and the storage was in range at the beginning. The hypotheses are met by the example with
`mixedHistory` below. -/
theorem C119_in_range {c : Cfg} {w : Widths} {loc : Location → Prop} (hc : Fits.Config w c) (hx : Fits.Parsers c.ext)
    {s : Chain} (hs : Fits.storage w c.maxBlob loc s) (ops : List Op) (hq : ∀ op ∈ ops, Fits.op w c.maxBlob loc op)
    (hn : Fits.number w.moment (run c s ops).now) (hb : Fits.number w.block (run c s ops).block) :
    Fits.storage w c.maxBlob loc (run c s ops) := by
  refine run_invariant' (Q := Fits.op w c.maxBlob loc)
    (P := fun t => Fits.number w.moment t.now → Fits.number w.block t.block → Fits.storage w c.maxBlob loc t)
    (fun t t' op hq ih hx' hn hb => ?_) (fun _ _ => hs) ops hq hn hb
  have hn' := hn.mono (exec_now_le hx')
  have hb' := hb.mono (exec_block_le hx')
  exact storage_fits hc hx hn' hb' hq (ih hn' hb') hx'

/-- Reading back what was written yields the value and consumes all bytes. -/
def ReadsBack {α : Type} (k : Codec α) (v : α) : Prop := k.dec (k.enc v) = some (v, [])

theorem Faithful.readsBack {α : Type} {k : Codec α} {f : α → Bytes} {p : α → Prop} (h : Faithful k f p) {v : α}
    (hv : p v) : ReadsBack k v :=
  (h.2 _ _ _).2 ⟨hv, by rw [h.1 v hv, List.append_nil]⟩

theorem Scale.Exact.readsBack {α : Type} {k : Codec α} (h : Scale.Exact k) {v : α} (hv : k.fits v) : ReadsBack k v := by
  have := h.read v [] hv
  rwa [List.append_nil] at this

/-- C119 (reading): in every such history all entries of all maps read back as the values that were written. -/
theorem C119_reads_back {c : Cfg} {w : Widths} {loc : Codec Location} (hloc : Faithful loc loc.enc loc.fits)
    (hc : Fits.Config w c) (hx : Fits.Parsers c.ext) {s : Chain} (hs : Fits.storage w c.maxBlob loc.fits s)
    (ops : List Op) (hq : ∀ op ∈ ops, Fits.op w c.maxBlob loc.fits op)
    (hn : Fits.number w.moment (run c s ops).now) (hb : Fits.number w.block (run c s ops).block) :
    let t := run c s ops
    (∀ a b, t.td.bonds a = some b → ReadsBack (teerDayBond w) b) ∧
    (∀ a p, t.td.pending a = some p → ReadsBack (pendingUnlock w) p) ∧
    (∀ a e, t.tx.sovereign a = some e → ReadsBack multiEnclave e) ∧
    (∀ a e, t.tx.proxied a = some e → ReadsBack instanceAddress a ∧ ReadsBack multiEnclave e) ∧
    ReadsBack Scale.quotingEnclave t.tx.qe ∧
    (∀ f i, t.tx.tcb f = some i → ReadsBack tcbInfoOnChain i) ∧
    (∀ i l, t.br.status i = some l → ReadsBack (signerStatusVec w) l) ∧
    (∀ i u, t.br.config i = some u → ReadsBack (upgradableShardConfig w) u) ∧
    (∀ h n, t.br.executed h = some n → ReadsBack (le 8) n) ∧
    (∀ i b, t.sc.latest i = some b → ReadsBack Scale.confirmation b) ∧
    (∀ p o r, t.orc.rates p o = some r → ReadsBack bytes p ∧ ReadsBack bytes o ∧ ReadsBack (le 8) r) ∧
    (∀ n o b, t.orc.blobs n o = some b → ReadsBack bytes n ∧ ReadsBack bytes o ∧ ReadsBack (bounded byte c.maxBlob) b) ∧
    (∀ o, t.orc.whitelist o ≠ [] → ReadsBack bytes o ∧ ReadsBack (vec (arr 32)) (t.orc.whitelist o)) ∧
    (∀ a v, t.cl.claims a = some v → ReadsBack (le w.bal) v) ∧
    ReadsBack (le w.bal) t.cl.total ∧
    (∀ a v, t.cl.vesting a = some v → ReadsBack (vestingInfo w) v) ∧
    (∀ a v, t.cl.signing a = some v → ReadsBack statementKind v) ∧
    (∀ i l, t.ar.idLoc i = some l → ReadsBack (le w.asset) i ∧ ReadsBack loc l) ∧
    (∀ l i, t.ar.locId l = some i → ReadsBack loc l ∧ ReadsBack (le w.asset) i) := by
  intro t
  have f := C119_in_range hc hx hs ops hq hn hb
  have num {n v : Nat} (h : Fits.number n v) : ReadsBack (le n) v := (exact_le n).readsBack ((fits_number n v).2 h)
  have txt {b : Bytes} (h : Fits.vector b) : ReadsBack bytes b := exact_bytes.readsBack ((fits_text b).2 h)
  have blob {b : Bytes} (h : Fits.vector b) (h' : b.length ≤ c.maxBlob) : ReadsBack (bounded byte c.maxBlob) b :=
    (exact_bounded (n := c.maxBlob) exact_byte).readsBack ((fits_blob b _).2 ⟨h, h'⟩)
  have hashes {l : List H256} (h : Fits.vector l) : ReadsBack (vec (arr 32)) l :=
    (exact_vec (exact_arr 32)).readsBack ((fits_hashes l).2 h)
  exact ⟨fun a b h => (C116_teerdays w).1.readsBack (f.bonds a b h),
    fun a p h => (C116_teerdays w).2.readsBack (f.pending a p h),
    fun a e h => C116_teerex.1.readsBack (f.sovereign a e h),
    fun a e h => ⟨C116_teerex.2.1.readsBack (f.proxied a e h).1, C116_teerex.1.readsBack (f.proxied a e h).2⟩,
    C116_teerex.2.2.1.readsBack f.quotingEnclave,
    fun a i h => C116_teerex.2.2.2.readsBack (f.tcbInfo a i h),
    fun i l h => (C116_shards w).1.readsBack (f.status i l h),
    fun i u h => (C116_shards w).2.1.readsBack (f.config i u h),
    fun x n h => num (f.executed x n h),
    fun i b h => (C116_shards w).2.2.readsBack (f.latest i b h),
    fun p o r h => ⟨txt (f.rates p o r h).1, txt (f.rates p o r h).2.1, num (f.rates p o r h).2.2⟩,
    fun n o b h => ⟨txt (f.blobs n o b h).1, txt (f.blobs n o b h).2.1, blob (f.blobs n o b h).2.2.1 (f.blobs n o b h).2.2.2⟩,
    fun o h => ⟨txt (f.whitelist o h).1, hashes (f.whitelist o h).2⟩,
    fun a v h => num (f.claims a v h), num f.total,
    fun a v h => (C116_claims w).1.readsBack (f.vesting a v h),
    fun a v _ => (C116_claims w).2.readsBack trivial,
    fun i l h => ⟨num (f.idLoc i l h).1, hloc.readsBack (f.idLoc i l h).2⟩,
    fun l i h => ⟨hloc.readsBack (f.locId l i h).2, num (f.locId l i h).1⟩⟩

/-- Accepting checks as in `Demo.okExt`, but only two documents can be parsed. -/
def twoDocs : Ext :=
  { Demo.okExt with
    json := fun d => if d = Demo.bytes 3 1 then Demo.readJson (Demo.bytes 3 1)
      else if d = Demo.bytes 3 2 then Demo.readJson (Demo.bytes 3 2) else none }

def twoDocsCfg : Cfg := { Demo.cfg with ext := twoDocs }

theorem twoDocs_parsers : Fits.Parsers twoDocs where
  dates t d h := by
    simp only [twoDocs, Demo.okExt, Demo.readDate] at h
    split at h
    · cases h; decide
    split at h
    · cases h; decide
    split at h
    · cases h; decide
    split at h
    · cases h; decide
    split at h
    · cases h; decide
    · simp at h
  identity data i h := by
    have a1 : (twoDocs.parseIdentity (Demo.bytes 3 1)).all (fun i => decide (Fits.vector i.tcbLevels)) = true := by
      decide +kernel
    have a2 : (twoDocs.parseIdentity (Demo.bytes 3 2)).all (fun i => decide (Fits.vector i.tcbLevels)) = true := by
      decide +kernel
    by_cases h1 : data = Demo.bytes 3 1
    · rw [h1] at h; rw [h] at a1; exact of_decide_eq_true a1
    by_cases h2 : data = Demo.bytes 3 2
    · rw [h2] at h; rw [h] at a2; exact of_decide_eq_true a2
    simp [Ext.parseIdentity, twoDocs, h1, h2] at h
  tcbInfo data i h := by
    have a1 : (twoDocs.parseTcbInfo (Demo.bytes 3 1)).all (fun i => decide (Fits.vector i.tcbLevels)) = true := by
      decide +kernel
    have a2 : (twoDocs.parseTcbInfo (Demo.bytes 3 2)).all (fun i => decide (Fits.vector i.tcbLevels)) = true := by
      decide +kernel
    by_cases h1 : data = Demo.bytes 3 1
    · rw [h1] at h; rw [h] at a1; exact of_decide_eq_true a1
    by_cases h2 : data = Demo.bytes 3 2
    · rw [h2] at h; rw [h] at a2; exact of_decide_eq_true a2
    simp [Ext.parseTcbInfo, twoDocs, h1, h2] at h

/-- Collateral, a DCAP registration, a proxied one, a bond, a bridge transfer. -/
def mixedHistory : List Op :=
  Demo.dcapHistory ++ [.ext (.signed Demo.alice) (.bond 100), .newBlock 50, .ext (.signed Demo.alice) (.unbond 60)] ++
    Demo.bridgeHistory

theorem start_fits (loc : Location → Prop) : Fits.storage demoWidths Demo.cfg.maxBlob loc Demo.start := by
  constructor <;> intros <;> first
    | contradiction
    | (simp [Demo.start, genesis] at *; done)
    | (simp [Demo.start, genesis, Demo.noClaims] at *; done)
    | decide
    | (refine ⟨by decide, by decide, by decide, by decide, ?_⟩; intro v hv; simp [Demo.start, genesis, SgxQuotingEnclave.default] at hv)

theorem mixed_fits (loc : Location → Prop) :
    ∀ op ∈ mixedHistory, Fits.op demoWidths twoDocsCfg.maxBlob loc op := by
  intro op hop
  simp only [mixedHistory, Demo.dcapHistory, Demo.bridgeHistory, Demo.regTcb, Demo.regQe, Demo.enroll, Demo.shield,
    Demo.unshield, List.cons_append, List.nil_append, List.mem_cons, List.not_mem_nil, or_false] at hop
  rcases hop with rfl | rfl | rfl | rfl | rfl | rfl | rfl | rfl | rfl | rfl | rfl | rfl <;>
    simp only [Fits.op, Fits.call] <;> first
      | exact True.intro
      | decide +kernel
      | (refine ⟨by decide +kernel, ?_⟩; intro x hx; cases hx <;> decide)

/-- The hypotheses of C119 hold of a history that stores collateral, enclaves, a bond, a pending withdrawal, and a
shard status; the theorem is about these entries. -/
example : Fits.Config demoWidths twoDocsCfg ∧ Fits.Parsers twoDocsCfg.ext ∧
    Fits.storage demoWidths twoDocsCfg.maxBlob demoLoc.fits Demo.start ∧
    (∀ op ∈ mixedHistory, Fits.op demoWidths twoDocsCfg.maxBlob demoLoc.fits op) ∧
    Fits.number demoWidths.moment (run twoDocsCfg Demo.start mixedHistory).now ∧
    Fits.number demoWidths.block (run twoDocsCfg Demo.start mixedHistory).block ∧
    (run twoDocsCfg Demo.start mixedHistory).td.bonds Demo.alice = some ⟨40, 5050, 2000⟩ ∧
    ((run twoDocsCfg Demo.start mixedHistory).tx.tcb Demo.demoFmspc).isSome = true ∧
    ((run twoDocsCfg Demo.start mixedHistory).tx.sovereign Demo.carol).isSome = true ∧
    (run twoDocsCfg Demo.start mixedHistory).br.executed Demo.hash1 = some 2 := by
  refine ⟨⟨by decide, by decide, by decide, by decide, by decide, by decide⟩, twoDocs_parsers, start_fits _,
    mixed_fits _, by decide +kernel, by decide +kernel, by decide +kernel, by decide +kernel, by decide +kernel,
    by decide +kernel⟩

end Verif
