import Verif.Props.Claims
import Verif.Props.Lifecycle
import Verif.Props.Events
import Verif.Props.News
import Verif.Props.RawStorage
import Verif.Props.TeerdaysTotal
import Verif.Props.Encoding

/-!
# Where further partial theorems stop

As in `Verif.Props.Sharp`: exact conditions under which a claim that is false in full holds, or theorems saying that it fails
in every state.
-/

namespace Verif

open Demo EnclaveBridge Claims Scale

/-! ### teerdays -/

/-- C123: the exact account. What the account loses beyond the tokentime stated in the event is the tokentime of a rest that is
dropped. -/
theorem C123_sharp (c : Cfg) (s s' : Chain) (a : AccountId) (v amount burned : Nat) (l : List TdEvent)
    (h : exec c s (.ext (.signed a) (.unbond v)) = .ok s') (he : s'.td.events = .unbonded a amount burned :: l) :
    tokentimeNow c s' a + burned + (if s'.td.bonds a = none then tokentimeLeft c s a v else 0) = tokentimeNow c s a := by
  obtain ⟨a', b, _, ho, _, _, hb, _, rfl⟩ := Teerdays.unbond_ok.mp h
  cases ho
  obtain ⟨h1, h2⟩ := tokentimeLeft_of (c := c) hb v
  have hl := leftTokentime_le c.balMax (b.update c.balMax s.now) (new := b.value - v) (Nat.sub_le _ _)
  have hm : (b.update c.balMax s.now).tokentime ≤ c.balMax := by
    simp only [Bond.update, satAdd]; omega
  have ht : tokentimeNow c s a = (b.update c.balMax s.now).tokentime := by rw [bondNow_of hb]; rfl
  simp only [List.cons.injEq, TdEvent.unbonded.injEq, true_and] at he
  obtain ⟨⟨_, rfl⟩, -⟩ := he
  rw [h1] at hl ⊢
  by_cases hd : b.value - v < c.ed
  · rw [ht] at h2 ⊢
    simp only [hd, if_true, tokentimeNow, upd_same, Option.elim_none]
    omega
  · rw [ht] at h2 ⊢
    simp only [hd, if_false, tokentimeNow, upd_same, Option.elim_some, reduceCtorEq]
    simp only [Nat.sub_self, Nat.mul_zero, Nat.add_zero]
    omega

/-- Alice unbonds 95 of 100: the event states 95000 of the 100000 lost, the rest has 5000. -/
example : (exec cfg (run cfg start dustRestHistory) (.ext (.signed alice) (.unbond 95))).isOk = true ∧
    (step cfg (run cfg start dustRestHistory) (.ext (.signed alice) (.unbond 95))).td.events.head? =
      some (.unbonded alice 95 95000) ∧
    tokentimeLeft cfg (run cfg start dustRestHistory) alice 95 = 5000 := by decide +kernel

/-- C11: after the withdrawal exactly the rest that was not unbonded is locked, whether it is still bonded or was dropped for
being below the existential deposit. -/
theorem C11_sharp (c : Cfg) (s0 s1 s2 : Chain) (a : AccountId) (v : Nat) (ops0 ops : List Op)
    (hB : 0 < c.balMax) (h0 : TdFresh s0 a) (hN : NoRebond c a s0 ops0) (hpos : 0 < bondValue (run c s0 ops0) a)
    (hu : exec c (run c s0 ops0) (.ext (.signed a) (.unbond v)) = .ok s1)
    (hops : ∀ op ∈ ops, ¬ OwnTdCall a op)
    (hw : exec c (run c s1 ops) (.ext (.signed a) .withdrawUnbonded) = .ok s2) :
    tdLock s2 a = bondValue (run c s0 ops0) a - v ∧
    (s2.td.bonds a = none ↔ bondValue (run c s0 ops0) a - v < c.ed) := by
  have hL := (C11_left_locked_partial c s0 a ops0 hB h0 hN).2 hpos
  generalize run c s0 ops0 = s at *
  have h1 : tdLock s1 a = pendingAmount s1 a + (bondValue s a - v) ∧ (s1.td.bonds a = none ↔ bondValue s a - v < c.ed) := by
    obtain ⟨a', b, _, ho, hp, _, hb, _, rfl⟩ := Teerdays.unbond_ok.mp hu
    cases ho
    have hv : bondValue s a = b.value := by simp [bondValue, hb]
    simp only [pendingAmount, hp, Option.elim_none] at hL
    simp only [pendingAmount, upd_same, Option.elim_some, hv]
    refine ⟨?_, ?_⟩
    · show tdLock s a = _
      omega
    · by_cases hd : b.value - v < c.ed <;> simp [hd]
  have h2 : tdLock (run c s1 ops) a = pendingAmount (run c s1 ops) a + (bondValue s a - v) ∧
      ((run c s1 ops).td.bonds a = none ↔ bondValue s a - v < c.ed) := by
    refine run_invariant' (P := fun t => tdLock t a = pendingAmount t a + (bondValue s a - v) ∧
      (t.td.bonds a = none ↔ bondValue s a - v < c.ed)) (Q := fun op => ¬ OwnTdCall a op) ?_ h1 ops hops
    intro t t' op hno h h'
    have := C09_foreign_operations c t t' a op hno h'
    have hbn : t'.td.bonds a = none ↔ t.td.bonds a = none := by
      rcases this.2.2.2 with hb | ⟨_, hb⟩ <;> simp [hb]
    unfold pendingAmount at *
    rw [hbn, this.2.1, this.2.2.1]; exact h
  generalize run c s1 ops = t at *
  obtain ⟨a', due, amount, ho, hp, _, rfl⟩ := Teerdays.withdrawUnbonded_ok.mp hw
  cases ho
  simp only [pendingAmount, hp, Option.elim_some] at h2
  refine ⟨?_, h2.2⟩
  have h3 : t.bal.lock .teerdays a = amount + (bondValue s a - v) := h2.1
  show (if _ then _ else _ : Balances).lock .teerdays a = _
  split
  · simp [Balances.removeLock, upd]; omega
  · rename_i hne
    rw [h3] at hne ⊢
    have : min amount (amount + (bondValue s a - v)) = amount := by omega
    rw [this] at hne ⊢
    have hz : amount + (bondValue s a - v) - amount ≠ 0 := by omega
    simp only [Balances.setLock, hz, if_false, upd_same]
    omega

/-- Alice unbonds 995 of 1000, waits and withdraws: 5 stay locked without a bond. -/
example : ∃ s1 s2, 0 < bondValue (run cfg start goodHistory) alice ∧
    exec cfg bonded (.ext (.signed alice) (.unbond 995)) = .ok s1 ∧
    exec cfg (run cfg s1 [.newBlock 1000]) (.ext (.signed alice) .withdrawUnbonded) = .ok s2 ∧ tdLock s2 alice = 5 := by
  have h1 : exec cfg bonded (.ext (.signed alice) (.unbond 995)) = .ok _ := exec_ok_of_isOk (by decide +kernel)
  have h2 : exec cfg (run cfg (step cfg bonded (.ext (.signed alice) (.unbond 995))) [.newBlock 1000])
      (.ext (.signed alice) .withdrawUnbonded) = .ok _ := exec_ok_of_isOk (by decide +kernel)
  exact ⟨_, _, by decide, h1, h2, by decide +kernel⟩

/-- C147: in every state, whoever has a bond of `v` and no other locks can get the same tokens bonded once more, with a second
account. -/
theorem C147_sharp (c : Cfg) (s : Chain) (a b : AccountId) (v : Nat) (hab : a ≠ b) (he : 0 < c.ed) (hev : c.ed ≤ v)
    (hb : ∃ x, s.td.bonds a = some x ∧ x.value = v) (hp : s.td.pending a = none) (hf : v ≤ s.bal.free a)
    (hl : ∀ id, id ≠ .teerdays → s.bal.lock id a = 0) (hb2 : s.td.bonds b = none) (hfit : s.bal.free b + v ≤ c.balMax)
    (hnow : s.now + c.unlockPeriod ≤ c.momentMax) :
    ∃ ops : List Op, (∀ op ∈ ops, (∃ dt, op = .newBlock dt) ∨ ∃ k, op = .ext (.signed a) k ∨ op = .ext (.signed b) k) ∧
      bondedTotal (run c s ops) [a, b] = 2 * v ∧ (run c s ops).bal.issuance ≤ s.bal.issuance := by
  obtain ⟨x, hb, rfl⟩ := hb
  have e1 : ∃ s1, exec c s (.ext (.signed a) (.unbond x.value)) = .ok s1 ∧ s1.td.bonds a = none ∧
      s1.td.pending a = some (s.now + c.unlockPeriod, x.value) ∧ s1.bal = s.bal ∧ s1.td.bonds b = none ∧ s1.now = s.now := by
    refine ⟨_, Teerdays.unbond_ok.mpr ⟨a, x, _, rfl, hp, hev, hb, by rw [plainAdd, if_pos hnow], rfl⟩, ?_, ?_, rfl, ?_, rfl⟩
    · simp [he]
    · simp
    · simp [upd, Ne.symm hab, hb2]
  obtain ⟨s1, h1, b1, p1, l1, bb1, n1⟩ := e1
  have hm : min x.value (s.bal.free a) = x.value := by omega
  have e2 : ∃ s2, exec c s1 (.ext (.signed a) (.bond x.value)) = .ok s2 ∧ bondValue s2 a = x.value ∧
      s2.td.pending a = s1.td.pending a ∧ s2.bal.lock .teerdays a = x.value ∧
      (∀ id, id ≠ .teerdays → s2.bal.lock id a = 0) ∧ s2.bal.free = s.bal.free ∧ s2.bal.issuance = s.bal.issuance ∧
      s2.td.bonds b = none ∧ s2.now = s.now := by
    have hz : x.value ≠ 0 := by omega
    refine ⟨_, Teerdays.bond_ok.mpr ⟨a, rfl, b1, hev, rfl⟩, ?_, rfl, ?_, ?_, ?_, ?_, ?_, n1⟩
    · simp [bondValue, l1, hm]
    · simp [Balances.setLock, l1, hm, hz, upd]
    · intro id hid
      simp [Balances.setLock, l1, hm, hz, upd, hid, hl id hid]
    · simp [Balances.setLock, l1, hm, hz]
    · simp [Balances.setLock, l1, hm, hz]
    · simp [upd, Ne.symm hab, bb1]
  obtain ⟨s2, h2, b2, p2, k2, o2, f2, i2, bb2, n2⟩ := e2
  have e3 : ∃ s3, exec c s2 (.newBlock c.unlockPeriod) = .ok s3 ∧ s3.td = s2.td ∧ s3.bal = s2.bal ∧
      s3.now = s.now + c.unlockPeriod := ⟨_, rfl, rfl, rfl, by simp [n2]⟩
  obtain ⟨s3, h3, t3, l3, n3⟩ := e3
  have e4 : ∃ s4, exec c s3 (.ext (.signed a) .withdrawUnbonded) = .ok s4 ∧ s4.td.bonds = s2.td.bonds ∧
      (∀ id, s4.bal.lock id a = 0) ∧ s4.bal.free = s.bal.free ∧ s4.bal.issuance = s.bal.issuance := by
    refine ⟨_, Teerdays.withdrawUnbonded_ok.mpr ⟨a, _, _, rfl, by rw [t3, p2, p1], by omega, rfl⟩, ?_, ?_, ?_, ?_⟩
    · rw [t3]
    · intro id
      rw [if_pos (by rw [l3, k2]; omega)]
      by_cases hid : id = .teerdays
      · subst hid; simp [Balances.removeLock, upd]
      · simp [Balances.removeLock, upd, hid, l3, o2 id hid]
    · rw [if_pos (by rw [l3, k2]; omega)]
      simp [Balances.removeLock, l3, f2]
    · rw [if_pos (by rw [l3, k2]; omega)]
      simp [Balances.removeLock, l3, i2]
  obtain ⟨s4, h4, b4, k4, f4, i4⟩ := e4
  have e5 : ∃ s5, exec c s4 (.ext (.signed a) (.balTransfer b x.value)) = .ok s5 ∧ s5.td = s4.td ∧
      x.value ≤ s5.bal.free b ∧ s5.bal.issuance ≤ s.bal.issuance := by
    have hr : s4.bal.reducible c.ed a = s.bal.free a := by
      simp [Balances.reducible, Balances.frozen, k4, f4]
    have ht : ∃ t, s4.bal.transfer c.ed c.balMax a b x.value = .ok t ∧ x.value ≤ t.free b ∧ t.issuance ≤ s.bal.issuance := by
      unfold Balances.transfer
      rw [if_neg (by rintro (h | h); · omega
                     · exact hab h), if_neg (by rw [f4]; omega), if_neg (by rw [hr]; omega), if_neg (by rw [f4]; omega),
        if_neg (by rw [f4]; omega)]
      refine ⟨_, rfl, by simp, ?_⟩
      simp only; rw [i4]; omega
    obtain ⟨t, ht, ht1, ht2⟩ := ht
    exact ⟨_, balTransfer_ok.mpr ⟨a, _, rfl, ht, rfl⟩, rfl, ht1, ht2⟩
  obtain ⟨s5, h5, t5, f5, i5⟩ := e5
  have e6 : ∃ s6, exec c s5 (.ext (.signed b) (.bond x.value)) = .ok s6 ∧ bondValue s6 a = x.value ∧
      bondValue s6 b = x.value ∧ s6.bal.issuance ≤ s.bal.issuance := by
    refine ⟨_, Teerdays.bond_ok.mpr ⟨b, rfl, by rw [t5, b4]; exact bb2, hev, rfl⟩, ?_, ?_, ?_⟩
    · simpa [bondValue, upd, hab, t5, b4] using b2
    · have : min x.value (s5.bal.free b) = x.value := by omega
      simp [bondValue, this]
    · have : (s5.bal.setLock .teerdays b (min x.value (s5.bal.free b))).issuance = s5.bal.issuance := by
        unfold Balances.setLock; split <;> rfl
      rw [this]; exact i5
  obtain ⟨s6, h6, b6, bb6, i6⟩ := e6
  refine ⟨[.ext (.signed a) (.unbond x.value), .ext (.signed a) (.bond x.value), .newBlock c.unlockPeriod,
    .ext (.signed a) .withdrawUnbonded, .ext (.signed a) (.balTransfer b x.value), .ext (.signed b) (.bond x.value)], ?_, ?_⟩
  · simp
  · simp only [run_cons, run_nil, step_of_ok h1, step_of_ok h2, step_of_ok h3, step_of_ok h4, step_of_ok h5, step_of_ok h6]
    refine ⟨?_, i6⟩
    simp [bondedTotal, b6, bb6]
    omega

/-- Alice has bonded all of their 1000 tokens; Bob has nothing bonded. -/
example : ∃ ops, bondedTotal (run cfg (run cfg start [.ext (.signed alice) (.bond 1000)]) ops) [alice, bob] = 2000 :=
  have ⟨ops, _, h, _⟩ := C147_sharp cfg (run cfg start [.ext (.signed alice) (.bond 1000)]) alice bob 1000 (by decide) (by decide)
    (by decide) ⟨_, rfl, by decide +kernel⟩ (by decide +kernel) (by decide +kernel)
    (fun id h => by cases id <;> first | exact absurd rfl h | decide +kernel) (by decide +kernel) (by decide +kernel) (by decide +kernel)
  ⟨ops, h⟩

/-! ### teerex and enclave-bridge -/

/-- C108: whatever their measurement, two registrations for the same account with the same url, method and status leave the
same events. -/
theorem C108_sharp (c : Cfg) (s t s' t' : Chain) (a : AccountId) (p q : Bytes) (url : Option Bytes) (m : SgxAttestationMethod)
    (e f : SgxEnclave) (hs : exec c s (.ext (.signed a) (.registerSgxEnclave p url m)) = .ok s')
    (ht : exec c t (.ext (.signed a) (.registerSgxEnclave q url m)) = .ok t')
    (he : s'.tx.sovereign a = some e) (hf : t'.tx.sovereign a = some f) (hm : m.isProxied = false)
    (hst : e.status = f.status) (hev : s.tx.events = t.tx.events) : s'.tx.events = t'.tx.events := by
  obtain ⟨_, e', h, _, _, hem, _, _, _, hs⟩ := register_iff.mp hs
  cases h
  obtain ⟨_, f', h, _, _, hfm, _, _, _, ht⟩ := register_iff.mp ht
  cases h
  have pe : e'.proxied = false := by rw [← isProxied_eq, hem]; exact hm
  have pf : f'.proxied = false := by rw [← isProxied_eq, hfm]; exact hm
  rcases hs with ⟨_, _, rfl⟩ | ⟨h, _⟩
  · rcases ht with ⟨_, _, rfl⟩ | ⟨h, _⟩
    · simp only [upd_same, Option.some.injEq] at he hf
      subst he hf
      simp only [hst, hev]
    · rw [pf] at h; cases h
  · rw [pe] at h; cases h

/-- Registering code 7 and registering code 8. -/
example : ((run cfg start [enroll alice 7]).tx.sovereign alice).map (·.mrEnclave) ≠
      ((run cfg start [enroll alice 8]).tx.sovereign alice).map (·.mrEnclave) ∧
    ((run cfg start [enroll alice 7]).tx.sovereign alice).map (·.status) =
      ((run cfg start [enroll alice 8]).tx.sovereign alice).map (·.status) ∧
    (run cfg start [enroll alice 7]).tx.events = (run cfg start [enroll alice 8]).tx.events := by decide +kernel

/-- C110: whoever may change the configuration of a shard may put anything there at any time, and the events are the same
whatever it is. -/
theorem C110_sharp (c : Cfg) (s s' : Chain) (o : Origin) (shard : ShardId) (x y : ShardConfig) (d d' : Nat)
    (h : exec c s (.ext o (.updateShardConfig shard x d)) = .ok s') :
    ∃ t, exec c s (.ext o (.updateShardConfig shard y d')) = .ok t ∧ t.br.events = s'.br.events := by
  rcases updateShardConfig_ok.mp h with ⟨rfl, rfl⟩ | ⟨a, e, l, rfl, h1, h2, h3, h4, rfl⟩
  · exact ⟨_, updateShardConfig_ok.mpr (.inl ⟨rfl, rfl⟩), rfl⟩
  · exact ⟨_, updateShardConfig_ok.mpr (.inr ⟨a, e, l, rfl, h1, h2, h3, h4, rfl⟩), rfl⟩

example : (exec cfg start (.ext .root (.updateShardConfig shard7 (config 7) 0))).isOk = true ∧
    (run cfg start [.ext .root (.updateShardConfig shard7 (config 7) 0)]).br.config shard7 ≠
      (run cfg start [.ext .root (.updateShardConfig shard7 (config 8) 0)]).br.config shard7 := by decide +kernel

/-- C102: in every state each entry of the status of a shard is out of place after one call of root. -/
theorem C102_sharp (c : Cfg) (s : Chain) (shard : ShardId) (i : SignerStatus) (hi : i ∈ statusOf s shard) (cfg : ShardConfig)
    (hf : cfg.fingerprint ≠ i.fingerprint) :
    ∃ s', exec c s (.ext .root (.updateShardConfig shard cfg 0)) = .ok s' ∧ i ∈ statusOf s' shard ∧
      i.fingerprint ≠ fingerprintInEffect s' shard s'.block := by
  refine ⟨_, updateShardConfig_ok.mpr (.inl ⟨rfl, rfl⟩), hi, fun h => hf ?_⟩
  simp only [fingerprintInEffect, configInEffect, upd_same, Option.map_some] at h
  rw [h]
  unfold newConfig
  split
  · have : min s.block c.blockMax ≤ s.block := by omega
    simp [UpgradableShardConfig.inEffect, satAdd, this]
  · simp [UpgradableShardConfig.inEffect]

example : ∃ i ∈ statusOf (run cfg start bridgeHistory) shard7, (config 9).fingerprint ≠ i.fingerprint := by
  decide +kernel

/-- C128: in every state whoever may change the configuration of a shard can make its entry larger than any given size. -/
theorem C128_sharp (w : Scale.Widths) (loc : Codec Location) (c : Cfg) (s s' : Chain) (o : Origin) (shard : ShardId)
    (x : ShardConfig) (d n : Nat) (h : exec c s (.ext o (.updateShardConfig shard x d)) = .ok s') :
    ∃ y t v, exec c s (.ext o (.updateShardConfig shard y d)) = .ok t ∧
      (Scale.Slot.shardConfig shard).value w loc c.maxBlob t = some v ∧ n < v.length := by
  let y : ShardConfig := { x with authorities := some (List.replicate (n + 1) shard) }
  have hl : ((opt (vec (arr 32))).enc y.authorities).length ≥ n + 1 := by
    show (1 :: (vec (arr 32)).enc (List.replicate (n + 1) shard)).length ≥ n + 1
    rw [List.length_cons, vec_length (arr 32) 32 _ fun x _ => arr_length x, List.length_replicate]
    omega
  have hy : (Scale.shardConfig.enc y).length ≥ n + 1 := by
    simp only [Scale.shardConfig, iso, pair, List.length_append]
    omega
  have hbig : n < ((Scale.upgradableShardConfig w).enc (newConfig c s shard y d)).length := by
    unfold newConfig
    split
    · simp only [Scale.upgradableShardConfig, iso, pair, List.length_append]
      have : ((opt Scale.shardConfig).enc (some y)).length ≥ n + 1 := by
        show (1 :: Scale.shardConfig.enc y).length ≥ n + 1
        rw [List.length_cons]; omega
      omega
    · simp only [Scale.upgradableShardConfig, iso, pair, List.length_append]
      omega
  rcases updateShardConfig_ok.mp h with ⟨rfl, rfl⟩ | ⟨a, e, l, rfl, h1, h2, h3, h4, rfl⟩
  · exact ⟨y, _, _, updateShardConfig_ok.mpr (.inl ⟨rfl, rfl⟩), by simp only [Scale.Slot.value, upd_same]; rfl, hbig⟩
  · exact ⟨y, _, _, updateShardConfig_ok.mpr (.inr ⟨a, e, l, rfl, h1, h2, h3, h4, rfl⟩),
      by simp only [Scale.Slot.value, upd_same]; rfl, hbig⟩

/-- The owner of an enclave configures a shard. -/
example : (exec cfg (run cfg start [enroll alice 7]) (.ext (.signed alice) (.updateShardConfig shard7 (config 7) 0))).isOk = true := by
  decide +kernel

/-! ### claims -/

/-- C57: exactly when a paid out amount arrives. -/
theorem C57_sharp (c : Cfg) (s s' : Chain) (op : Op) (dest : AccountId) (g : EthAddr) (n : Nat) (h : exec c s op = .ok s')
    (hev : s'.cl.events = .claimed dest g n :: s.cl.events) :
    s'.bal.free dest = s.bal.free dest + n ↔
      n = 0 ∨ ((s.bal.free dest ≠ 0 ∨ c.ed ≤ n) ∧ s.bal.free dest + n ≤ c.balMax ∧ s.bal.issuance + n ≤ c.balMax) := by
  have hne : ∀ e (l : List ClEvent), e :: l ≠ l := fun e l h => absurd (congrArg List.length h) (by simp)
  rcases claims_effect h with ⟨h, hop⟩ | ⟨g', dest', due, auth, hc, ht, hp, total, claims, vesting, signing, events⟩ |
    ⟨who, v, vest, st, hop, total, claims, _, _, _, events⟩ | ⟨o, old, new, p, hop, auth, rfl⟩
  · rw [h] at hev; exact absurd hev.symm (hne _ _)
  · rw [events] at hev
    simp only [List.cons.injEq, ClEvent.claimed.injEq, and_true] at hev
    obtain ⟨rfl, rfl, rfl⟩ := hev
    obtain ⟨h1, h2, _⟩ := paid_cases hp
    rw [h1]
    unfold Balances.depositCreating
    split
    · constructor <;> intro <;> omega
    · simp only [upd_same, true_iff]
      omega
  · rw [events] at hev; exact absurd hev.symm (hne _ _)
  · exact absurd hev.symm (hne _ _)

/-- A claim of one, below the existential deposit, by a fresh account: it does not arrive. -/
example : ∃ s', exec cfg (run cfg start [mintOp ethA 1 none none]) (claimOp (Arr.fill 32 9)) = .ok s' ∧
    s'.bal.free (Arr.fill 32 9) ≠ (run cfg start [mintOp ethA 1 none none]).bal.free (Arr.fill 32 9) + 1 :=
  have h : exec cfg (run cfg start [mintOp ethA 1 none none]) (claimOp (Arr.fill 32 9)) = .ok _ :=
    exec_ok_of_isOk (by decide +kernel)
  ⟨_, h, fun hh => absurd ((C57_sharp cfg _ _ _ _ ethA 1 h (by decide +kernel)).mp hh) (by decide +kernel)⟩

/-- C80: in a solvent state, exactly when a claim accepted by the pool is paid. -/
theorem C80_sharp (c : Cfg) (s : Chain) (k : ClaimsCall) (g : EthAddr) (dest : AccountId) (hs : Solvent s)
    (h : ∃ v, validateUnsigned c s k = .ok v)
    (hk : (∃ sig, k = .claim dest sig ∧ SignedBy c g sig dest []) ∨
       ∃ sig st, k = .claimAttest dest sig st ∧ SignedBy c g sig dest st) :
    (∃ s', exec c s (.ext .none (.claims k)) = .ok s') ↔
      ∀ v, s.cl.vesting g = some v →
        s.bal.schedules dest = [] ∧ (v.locked = 0 ∨ (v.perBlock ≠ 0 ∧ 0 < c.maxSchedules)) := by
  obtain ⟨v, h⟩ := h
  constructor
  · rintro ⟨s', hx⟩ v hv
    have hp : processClaim c s g dest = .ok s' := by
      rcases hk with ⟨sig, rfl, hg⟩ | ⟨sig, st, rfl, hg⟩
      · obtain ⟨g', _, h1, _, h2⟩ := claim_ok.mp hx
        rwa [hg.unique ((ethRecover_iff ..).mp h1)]
      · obtain ⟨g', _, h1, _, h2⟩ := claimAttest_ok.mp hx
        rwa [hg.unique ((ethRecover_iff ..).mp h1)]
    obtain ⟨due, bal, _, _, hp, _⟩ := processClaim_ok.mp hp
    simp only [Paid, hv] at hp
    refine ⟨hp.1, ?_⟩
    rcases Balances.addVesting_ok hp.2 with ⟨h, _⟩ | ⟨_, h1, h2, _⟩
    · exact .inl h
    · exact .inr ⟨h1, by omega⟩
  · intro hv
    cases hx : exec c s (.ext .none (.claims k)) with
    | ok s' => exact ⟨s', rfl⟩
    | error e =>
      exfalso
      obtain ⟨g', d, hp, hc, hk'⟩ := validated_error h hx
      have hgd : g' = g ∧ d = dest := by
        rcases hk with ⟨sig, rfl, hg⟩ | ⟨sig, st, rfl, hg⟩ <;> rcases hk' with ⟨sig', he, hg'⟩ | ⟨sig', st', he, hg'⟩
        · cases he; exact ⟨hg'.unique hg, rfl⟩
        · cases he
        · cases he
        · cases he; exact ⟨hg'.unique hg, rfl⟩
      obtain ⟨rfl, rfl⟩ := hgd
      rcases processClaim_error hp with ⟨_, h⟩ | ⟨_, due, hd, hlt⟩ | ⟨he, v, hv', h⟩ | ⟨he, v, hv', h1, _, h2⟩
      · exact hc h
      · have h1 := hs [g'] (by simp)
        simp only [openClaims, List.map_cons, List.map_nil, hd, Option.getD_some, List.sum_cons, List.sum_nil, Nat.add_zero] at h1
        omega
      · exact h (hv v hv').1
      · rcases (hv v hv').2 with h | ⟨h3, h4⟩
        · exact h1 h
        · rcases h2 with h2 | h2
          · exact h3 h2
          · omega

/-- The claim at the start, without vesting. -/
example : Solvent claimsStart ∧ (∃ v, validateUnsigned cfg claimsStart (.claim carol anySig) = .ok v) ∧
    SignedBy cfg ethA anySig carol [] :=
  ⟨C48_genesis cfg demoGenesis [] claimsStart.cl claimsStart rfl rfl (.inr (by decide)), ⟨_, rfl⟩,
    (ethRecover_iff ..).mp (by decide +kernel)⟩

/-- C81: exactly when a minted claim has the vesting and the statement that root asked for. -/
theorem C81_sharp (c : Cfg) (s s' : Chain) (o : Origin) (who : EthAddr) (n : Nat) (vest : Option VestingInfo)
    (st : Option StatementKind) (h : exec c s (.ext o (.claims (.mintClaim who n vest st))) = .ok s') :
    (s'.cl.vesting who = vest ↔ vest ≠ none ∨ s.cl.vesting who = none) ∧
    (s'.cl.signing who = st ↔ st ≠ none ∨ s.cl.signing who = none) := by
  obtain ⟨_, _, h1, h2, _⟩ := C81_mint_partial c s s' o who n vest st h
  rw [h1, h2]
  constructor
  · cases vest <;> simp
  · cases st <;> simp

/-- A claim minted without statement for Bob's address, which has one. -/
example : (exec cfg claimsStart (mintOp ethB 5 none none)).isOk = true ∧ claimsStart.cl.signing ethB ≠ none := by decide +kernel

/-- C54: exactly when the new address of a moved claim has what the old one had. -/
theorem C54_sharp (c : Cfg) (s s' : Chain) (o : Origin) (old new : EthAddr) (p : Option AccountId)
    (h : exec c s (.ext o (.claims (.moveClaim old new p))) = .ok s') :
    (s'.cl.claims new = s.cl.claims old ↔ s.cl.claims old ≠ none ∨ s.cl.claims new = none) ∧
    (s'.cl.vesting new = s.cl.vesting old ↔ s.cl.vesting old ≠ none ∨ s.cl.vesting new = none) ∧
    (s'.cl.signing new = s.cl.signing old ↔ s.cl.signing old ≠ none ∨ s.cl.signing new = none) := by
  obtain ⟨_, h1, h2, h3, _⟩ := C54_move_partial c s s' o old new p h
  rw [h1, h2, h3]
  refine ⟨?_, ?_, ?_⟩
  · cases s.cl.claims old <;> simp
  · cases s.cl.vesting old <;> simp
  · cases s.cl.signing old <;> simp

/-- The claim without statement is moved to an address with one. -/
example : (exec cfg claimsStart (moveOp .root ethA ethB none)).isOk = true ∧ claimsStart.cl.signing ethA = none ∧
    claimsStart.cl.signing ethB ≠ none := by decide +kernel

/-- C113: in every state and for every amount a claim can be minted without a trace in the events, unless the total overflows. -/
theorem C113_sharp (c : Cfg) (s : Chain) (who : EthAddr) (n : Nat) (h : s.cl.total + n ≤ c.balMax) :
    ∃ s', exec c s (.ext .root (.claims (.mintClaim who n none none))) = .ok s' ∧ s'.cl.claims who = some n ∧
      s'.cl.events = s.cl.events := by
  have hx : mintClaim c s .root who n none none = .ok _ := mintClaim_ok.mpr ⟨s.cl.total + n, rfl, by rw [plainAdd, if_pos h], rfl⟩
  exact ⟨_, hx, by simp, rfl⟩

example : claimsStart.cl.total + 5 ≤ cfg.balMax := by decide +kernel

/-- C90: exactly which texts panic. They have 40 characters, possibly after "0x", of which some are blanks, tabs or line
breaks and the others an even number of digits. -/
theorem C90_sharp (s : Bytes) : ethAddrOfText s = .panic ↔
    ∃ t, (s = Der.ascii "0x" ++ t ∨ (s = t ∧ ∀ u, s ≠ Der.ascii "0x" ++ u)) ∧ t.length = 40 ∧
      (∃ x ∈ t, x ∈ ([32, 13, 10, 9] : Bytes)) ∧
      ∃ raw, lowerCase (t.filter (· ∉ ([32, 13, 10, 9] : Bytes))) = hexOf raw := by
  have hp : Der.ascii "0x" = [48, 120] := by decide +kernel
  have hsp : ∀ x : UInt8, isHexSpace x = true ↔ x ∈ ([32, 13, 10, 9] : Bytes) := by
    intro x; simp [isHexSpace, or_assoc]
  have hfil : ∀ t : Bytes, (t.filter fun x => !isHexSpace x) = t.filter (· ∉ ([32, 13, 10, 9] : Bytes)) := by
    intro t
    apply List.filter_congr
    intro y _
    simp only [← hsp]
    cases isHexSpace y <;> rfl
  rw [hp]
  by_cases h : ∃ t, s = [48, 120] ++ t
  · obtain ⟨t, rfl⟩ := h
    rw [ethAddrOfText_prefixed, ethDigits_panic, hfil]
    simp only [hsp]
    constructor
    · rintro h; exact ⟨t, .inl rfl, h⟩
    · rintro ⟨t', h | ⟨_, h⟩, h'⟩
      · rw [List.append_cancel_left h]; exact h'
      · exact absurd rfl (h t)
  · rw [ethAddrOfText_plain s fun t ht => h ⟨t, ht⟩, ethDigits_panic, hfil]
    simp only [hsp]
    constructor
    · rintro h'; exact ⟨s, .inr ⟨rfl, fun u hu => h ⟨u, hu⟩⟩, h'⟩
    · rintro ⟨t', h' | ⟨rfl, _⟩, h2⟩
      · exact absurd ⟨t', h'⟩ h
      · exact h2

/-- With a tab and a line break. -/
example : ethAddrOfText (Der.ascii "ABCDEFabcdef0123456789\tABCDEFabcdef0123\n") = .panic ∧
    ethAddrOfText (Der.ascii "ABCDEFabcdef0123456789\tABCDEFabcdef01234") = .invalid := by decide +kernel

end Verif
