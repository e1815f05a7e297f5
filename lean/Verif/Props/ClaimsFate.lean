import Verif.Props.Claims

/-!
# Where claims come from and where they go: C131, C132
-/

namespace Verif

open Demo

/-! ### C131 Every claimed amount is open, paid or overwritten -/

/-- The list has every address with an open claim, once. -/
def AllOpen (m : EthAddr → Option Nat) (l : List EthAddr) : Prop := l.Nodup ∧ ∀ a, m a ≠ none → a ∈ l

/-- There are finitely many open claims, and they sum up to `k`. -/
def OpenSum (m : EthAddr → Option Nat) (k : Nat) : Prop :=
  (∃ l, AllOpen m l) ∧ ∀ l, AllOpen m l → openClaims m l = k

/-- The amount of an open claim that an operation replaces by another one: minting for an address that has a claim, moving
a claim to another address that has one. -/
def overwritten (p : Chain × Op) : Nat :=
  match p.2 with
  | .ext _ (.claims (.mintClaim who _ _ _)) => (p.1.cl.claims who).getD 0
  | .ext _ (.claims (.moveClaim old new _)) =>
    if old ≠ new ∧ p.1.cl.claims old ≠ none then (p.1.cl.claims new).getD 0 else 0
  | _ => 0

/-- Everything overwritten in a history. -/
def overwrittenIn (acc : List (Chain × Op)) : Nat := (acc.map overwritten).sum

theorem openSum_upd {m : EthAddr → Option Nat} {k : Nat} (h : OpenSum m k) (g : EthAddr) (v : Option Nat) :
    ∃ k', OpenSum (upd m g v) k' ∧ k' + (m g).getD 0 = k + v.getD 0 := by
  obtain ⟨⟨l0, hn0, hc0⟩, hs⟩ := h
  have hle : (m g).getD 0 ≤ k := by
    rw [← hs l0 ⟨hn0, hc0⟩]
    by_cases hg : g ∈ l0
    · have := openClaims_upd_mem (m := m) (v := none) hn0 hg
      simp only [Option.getD_none] at this
      omega
    · cases hm : m g with
      | none => simp
      | some x => exact absurd (hc0 g (by rw [hm]; simp)) hg
  refine ⟨k - (m g).getD 0 + v.getD 0, ⟨?_, ?_⟩, by omega⟩
  · by_cases hg : g ∈ l0
    · refine ⟨l0, hn0, fun a ha => ?_⟩
      by_cases he : a = g
      · rw [he]; exact hg
      · rw [upd_ne _ _ he] at ha; exact hc0 a ha
    · refine ⟨g :: l0, List.nodup_cons.mpr ⟨hg, hn0⟩, fun a ha => ?_⟩
      by_cases he : a = g
      · simp [he]
      · rw [upd_ne _ _ he] at ha; exact List.mem_cons_of_mem _ (hc0 a ha)
  · rintro l ⟨hn, hc⟩
    by_cases hg : g ∈ l
    · have h1 := openClaims_upd_mem (m := m) (v := v) hn hg
      have h2 := hs l ⟨hn, fun a ha => by
        by_cases he : a = g
        · rw [he]; exact hg
        · exact hc a (by rw [upd_ne _ _ he]; exact ha)⟩
      omega
    · have h1 := openClaims_upd_notMem (m := m) (v := v) hg
      have h2 := hs (g :: l) ⟨List.nodup_cons.mpr ⟨hg, hn⟩, fun a ha => by
        by_cases he : a = g
        · simp [he]
        · exact List.mem_cons_of_mem _ (hc a (by rw [upd_ne _ _ he]; exact ha))⟩
      rw [openClaims_cons] at h2
      have hv : v = none := by
        cases v with
        | none => rfl
        | some x => exact absurd (hc g (by simp)) hg
      subst hv
      simp only [Option.getD_none]
      omega

theorem openSum_exec {c : Cfg} {s s' : Chain} {op : Op} {k : Nat} (hs : OpenSum s.cl.claims k) (h : exec c s op = .ok s') :
    ∃ k', OpenSum s'.cl.claims k' ∧ k' + paidOut s' + overwritten (s, op) = k + paidOut s + op.minted := by
  rcases claims_effect h with ⟨h, hop⟩ | ⟨g, dest, due, auth, hc, ht, hp, total, claims, _, _, events⟩ |
    ⟨who, v, vest, st, rfl, total, claims, _, _, _, events⟩ | ⟨o, old, new, p, rfl, auth, rfl⟩
  · refine ⟨k, by rw [h]; exact hs, ?_⟩
    have h1 : overwritten (s, op) = 0 := by
      cases op with
      | ext o k => cases k with
        | claims k => cases k <;> simp [Op.parts, Call.parts] at hop
        | _ => rfl
      | _ => rfl
    have h2 : op.minted = 0 := by
      unfold Op.minted
      split
      · simp [Op.parts, Call.parts] at hop
      · rfl
    simp only [paidOut, h, h1, h2]
  · obtain ⟨k', hk', e⟩ := openSum_upd hs g none
    rw [← claims] at hk'
    refine ⟨k', hk', ?_⟩
    have h1 : overwritten (s, op) = 0 ∧ op.minted = 0 := by
      rcases auth with ⟨sig, rfl, _⟩ | ⟨sig, st, rfl, _⟩ | ⟨st, rfl, _⟩ <;> exact ⟨rfl, rfl⟩
    rw [hc] at e
    simp only [Option.getD_some, Option.getD_none] at e
    simp only [paidOut, events, List.map_cons, List.sum_cons, ClEvent.amount, h1]
    omega
  · obtain ⟨k', hk', e⟩ := openSum_upd hs who (some v)
    rw [← claims] at hk'
    refine ⟨k', hk', ?_⟩
    simp only [Option.getD_some] at e
    simp only [paidOut, events, overwritten, Op.minted]
    omega
  · show ∃ k', OpenSum (Claims.moveEntry s.cl.claims old new) k' ∧ k' + paidOut s + _ = _
    simp only [overwritten, Op.minted]
    cases ho : s.cl.claims old with
    | none => exact ⟨k, by simpa [Claims.moveEntry, ho] using hs, by simp⟩
    | some v =>
      obtain ⟨k1, hk1, e1⟩ := openSum_upd hs old none
      obtain ⟨k2, hk2, e2⟩ := openSum_upd hk1 new (some v)
      refine ⟨k2, by simpa [Claims.moveEntry, ho] using hk2, ?_⟩
      rw [ho] at e1
      simp only [Option.getD_some, Option.getD_none] at e1 e2
      by_cases hon : old = new
      · subst hon
        rw [upd_same] at e2
        simp only [Option.getD_none] at e2
        simp
        omega
      · rw [upd_ne _ _ (Ne.symm hon)] at e2
        simp [hon]
        omega

/-- C131: after any history, what was open at the start or minted since is open now, has been paid out, or belonged to a
claim that was overwritten. There is no assumption about overflow or about the recorded total. -/
theorem C131_fate (c : Cfg) (s0 : Chain) (ops : List Op) (k0 : Nat) (h0 : OpenSum s0.cl.claims k0) :
    ∃ k, OpenSum (run c s0 ops).cl.claims k ∧
      k + paidOut (run c s0 ops) + overwrittenIn (accepted c s0 ops) = k0 + paidOut s0 + mintedIn (accepted c s0 ops) := by
  refine history_induction (c := c) (s0 := s0) (P := fun s acc => ∃ k, OpenSum s.cl.claims k ∧
    k + paidOut s + overwrittenIn acc = k0 + paidOut s0 + mintedIn acc) ⟨k0, h0, by simp [overwrittenIn, mintedIn]⟩ ?_ ops
  rintro s s' op acc ⟨k, hk, e⟩ hx
  obtain ⟨k', hk', e'⟩ := openSum_exec hk hx
  refine ⟨k', hk', ?_⟩
  rw [mintedIn_snoc]
  simp only [overwrittenIn, List.map_append, List.sum_append, List.map_cons, List.map_nil, List.sum_cons, List.sum_nil] at e ⊢
  omega

/-- Nothing is open in the start of the examples. -/
theorem openSum_start : OpenSum start.cl.claims 0 := by
  refine ⟨⟨[], List.nodup_nil, fun a ha => absurd rfl ha⟩, fun l hl => ?_⟩
  clear hl
  induction l with
  | nil => rfl
  | cons a l ih => simpa [openClaims, start, genesis, noClaims] using ih

example : ∃ k, OpenSum (run cfg start [mintOp ethA 5 none none, mintOp ethA 7 none none]).cl.claims k ∧
    k + paidOut (run cfg start [mintOp ethA 5 none none, mintOp ethA 7 none none]) +
      overwrittenIn (accepted cfg start [mintOp ethA 5 none none, mintOp ethA 7 none none]) =
    0 + paidOut start + mintedIn (accepted cfg start [mintOp ethA 5 none none, mintOp ethA 7 none none]) :=
  C131_fate cfg start _ 0 openSum_start

/-- C131: the recorded total exceeds the open claims by exactly what was overwritten (if the amounts minted fit into the
balance type or overflow is checked). -/
theorem C131_total (c : Cfg) (s0 : Chain) (ops : List Op) (k0 extra : Nat) (h0 : OpenSum s0.cl.claims k0)
    (ht : s0.cl.total = k0 + extra) (hev : s0.cl.events = [])
    (hf : c.overflowChecks = true ∨ Fits c s0.cl.total (accepted c s0 ops)) :
    ∃ k, OpenSum (run c s0 ops).cl.claims k ∧
      (run c s0 ops).cl.total = k + extra + overwrittenIn (accepted c s0 ops) := by
  obtain ⟨k, hk, e⟩ := C131_fate c s0 ops k0 h0
  refine ⟨k, hk, ?_⟩
  have h1 := C47_conserved c s0 ops hev hf
  have h2 : paidOut s0 = 0 := by simp [paidOut, hev]
  omega

/-- A start with nothing open, then an overwriting mint and an overwriting move. -/
example : OpenSum start.cl.claims 0 ∧ start.cl.total = 0 + 0 ∧ start.cl.events = [] ∧
    Fits cfg start.cl.total (accepted cfg start [mintOp ethA 5 none none, mintOp ethB 7 none none, mintOp ethB 9 none none,
      moveOp .root ethB ethA none]) ∧
    overwrittenIn (accepted cfg start [mintOp ethA 5 none none, mintOp ethB 7 none none, mintOp ethB 9 none none,
      moveOp .root ethB ethA none]) = 12 ∧
    (run cfg start [mintOp ethA 5 none none, mintOp ethB 7 none none, mintOp ethB 9 none none,
      moveOp .root ethB ethA none]).cl.total = 21 := by
  exact ⟨openSum_start, rfl, rfl, by unfold Fits; decide +kernel, by decide +kernel, by decide +kernel⟩

/-! ### C132 What the chain starts with -/

/-- The value of the last pair with this key. -/
def lastFor {K V : Type} [DecidableEq K] (l : List (K × V)) (x : K) : Option V :=
  ((l.filter fun p => p.1 = x).getLast?).map (·.2)

/-- The amounts of entries that are followed by another entry for the same address. -/
def shadowed : List Claims.GenesisClaim → Nat
  | [] => 0
  | g :: gs => (if gs.any (fun g' => g'.addr = g.addr) then g.value else 0) + shadowed gs

theorem foldl_upd_last {K V : Type} [DecidableEq K] (l : List (K × V)) (m : K → Option V) (x : K) :
    l.foldl (fun m p => upd m p.1 (some p.2)) m x = (lastFor l x).or (m x) := by
  induction l generalizing m with
  | nil => simp [lastFor]
  | cons p l ih =>
    rw [List.foldl_cons, ih]
    unfold lastFor
    by_cases hp : p.1 = x
    · rw [List.filter_cons_of_pos (by simp [hp]), List.getLast?_cons]
      subst hp
      cases (l.filter fun q => q.1 = p.1).getLast? <;> simp
    · rw [List.filter_cons_of_neg (by simp [hp]), upd_ne _ _ (Ne.symm hp)]

theorem foldl_upd_lastMap {K V A : Type} [DecidableEq K] (f : A → Option (K × V)) (st : (K → Option V) → A → K → Option V)
    (hst : ∀ m a, (∀ p, f a = some p → st m a = upd m p.1 (some p.2)) ∧ (f a = none → st m a = m)) (l : List A)
    (m : K → Option V) (x : K) : l.foldl st m x = (lastFor (l.filterMap f) x).or (m x) := by
  rw [← foldl_upd_last]
  induction l generalizing m with
  | nil => rfl
  | cons a l ih =>
    rw [List.foldl_cons, ih]
    cases hf : f a with
    | none => rw [(hst m a).2 hf, List.filterMap_cons_none hf]
    | some p => rw [(hst m a).1 p hf, List.filterMap_cons_some hf, List.foldl_cons]

theorem openSum_genesis (gs : List Claims.GenesisClaim) :
    ∃ k, OpenSum (gs.foldl (fun m g => upd m g.addr (some g.value)) fun _ => none) k ∧
      k + shadowed gs = (gs.map (·.value)).sum := by
  have hfold : ∀ (gs : List Claims.GenesisClaim) (m : EthAddr → Option Nat) (a : EthAddr) (v : Option Nat),
      gs.foldl (fun m g => upd m g.addr (some g.value)) (upd m a v) =
        if gs.any (fun g' => g'.addr = a) then gs.foldl (fun m g => upd m g.addr (some g.value)) m
        else upd (gs.foldl (fun m g => upd m g.addr (some g.value)) m) a v := by
    intro gs
    induction gs with
    | nil => simp
    | cons g gs ih =>
      intro m a v
      simp only [List.foldl_cons, List.any_cons]
      by_cases hg : g.addr = a
      · simp only [hg, decide_true, Bool.true_or, if_true]
        congr 1
        funext x
        simp only [upd_apply]
        split <;> rfl
      · simp only [hg, decide_false, Bool.false_or]
        rw [← ih]
        congr 1
        funext x
        simp only [upd_apply]
        by_cases h1 : x = g.addr <;> by_cases h2 : x = a <;> simp_all
  have hnone : ∀ (gs : List Claims.GenesisClaim) (a : EthAddr), gs.any (fun g' => g'.addr = a) = false →
      gs.foldl (fun m g => upd m g.addr (some g.value)) (fun _ => none) a = none := by
    intro gs a ha
    have := hfold gs (fun _ => none) a none
    rw [ha] at this
    have h2 : upd (fun _ : EthAddr => (none : Option Nat)) a none = fun _ => none := by
      funext x; simp [upd_apply]
    rw [h2] at this
    rw [this]; simp
  induction gs with
  | nil =>
    refine ⟨0, ⟨⟨[], List.nodup_nil, fun a ha => absurd rfl ha⟩, fun l _ => ?_⟩, rfl⟩
    have hz : ∀ l : List EthAddr, openClaims (fun _ => none) l = 0 := by
      intro l
      induction l with
      | nil => rfl
      | cons y l ih => rw [openClaims_cons, ih]; rfl
    exact hz l
  | cons g gs ih =>
    obtain ⟨k, hk, e⟩ := ih
    rw [List.foldl_cons, hfold]
    simp only [shadowed, List.map_cons, List.sum_cons]
    cases hg : gs.any (fun g' => g'.addr = g.addr) with
    | true => exact ⟨k, by simpa using hk, by simp; omega⟩
    | false =>
      obtain ⟨k', hk', e'⟩ := openSum_upd hk g.addr (some g.value)
      rw [hnone gs _ hg] at e'
      simp only [Option.getD_some, Option.getD_none] at e'
      exact ⟨k', by simpa using hk', by simp; omega⟩

/-- C132: after genesis, an address has the claim of the last entry that lists it, the statement of the last entry that
lists it with a statement, and the last vesting schedule listed for it; an account has the preclaim of the last entry that
names it. The total is the sum of all entries, thus it exceeds the open claims by the amounts of repeated addresses. The
hypotheses are met by the example with `repeatedGenesis` below. -/
theorem C132_genesis (c : Cfg) (gs : List Claims.GenesisClaim) (vs : List (EthAddr × VestingInfo)) (cl : ClaimsSt)
    (h : Claims.genesis c gs vs = .ok cl) (hf : c.overflowChecks = true ∨ (gs.map (·.value)).sum ≤ c.balMax) :
    (∀ g, cl.claims g = lastFor (gs.map fun e => (e.addr, e.value)) g) ∧
    (∀ g, cl.signing g = lastFor (gs.filterMap fun e => e.statement.map fun k => (e.addr, k)) g) ∧
    (∀ g, cl.vesting g = lastFor vs g) ∧
    (∀ a, cl.preclaims a = lastFor (gs.filterMap fun e => e.preclaim.map fun a => (a, e.addr)) a) ∧
    cl.total = (gs.map (·.value)).sum ∧ cl.events = [] ∧
    ∃ k, OpenSum cl.claims k ∧ cl.total = k + shadowed gs := by
  unfold Claims.genesis at h
  rw [bind_eq_ok] at h
  obtain ⟨t, ht, h⟩ := h
  simp only [Except.ok.injEq] at h
  subst h
  have hsum := genesis_total gs 0 t ht (by simpa using hf)
  refine ⟨fun g => ?_, fun g => ?_, fun g => ?_, fun a => ?_, by simpa using hsum, rfl, ?_⟩
  · have := foldl_upd_last (gs.map fun e => (e.addr, e.value)) (fun _ => none) g
    simpa [List.foldl_map] using this
  · have := foldl_upd_lastMap (fun e : Claims.GenesisClaim => e.statement.map fun k => (e.addr, k))
      (fun m e => match e.statement with
        | some k => upd m e.addr (some k)
        | none => m) (fun m e => by cases e.statement <;> simp) gs (fun _ => none) g
    rw [Option.or_none] at this
    exact this
  · have := foldl_upd_last vs (fun _ => none) g
    simpa using this
  · have := foldl_upd_lastMap (fun e : Claims.GenesisClaim => e.preclaim.map fun a => (a, e.addr))
      (fun m e => match e.preclaim with
        | some a => upd m a (some e.addr)
        | none => m) (fun m e => by cases e.preclaim <;> simp) gs (fun _ => none) a
    rw [Option.or_none] at this
    exact this
  · obtain ⟨k, hk, e⟩ := openSum_genesis gs
    exact ⟨k, hk, by show t = _; omega⟩

/-- C131 and C132 together: from genesis, the total always exceeds the open claims by exactly the amounts of repeated
genesis entries and of claims overwritten since. -/
theorem C131_from_genesis (c : Cfg) (gs : List Claims.GenesisClaim) (vs : List (EthAddr × VestingInfo)) (s0 : Chain)
    (ops : List Op) (h : Claims.genesis c gs vs = .ok s0.cl)
    (hf : (gs.map (·.value)).sum + mintedIn (accepted c s0 ops) ≤ c.balMax) :
    ∃ k, OpenSum (run c s0 ops).cl.claims k ∧
      (run c s0 ops).cl.total = k + shadowed gs + overwrittenIn (accepted c s0 ops) := by
  obtain ⟨_, _, _, _, h1, h2, k, hk, hkt⟩ := C132_genesis c gs vs s0.cl h (.inr (by omega))
  exact C131_total c s0 ops k _ hk hkt h2 (.inr (by unfold Fits; omega))

/-- Two entries for A, one for B: A has a claim of 30, and 100 are in the total for ever; then a claim is minted over B's
and moved over A's. -/
def repeatedGenesis : List Claims.GenesisClaim :=
  [⟨ethA, 100, none, some .regular⟩, ⟨ethB, 20, some bob, none⟩, ⟨ethA, 30, some bob, none⟩]

def repeatedStart : Chain :=
  match Claims.genesis cfg repeatedGenesis [(ethA, ⟨1, 2, 3⟩), (ethA, ⟨4, 5, 6⟩)] with
  | .ok cl => { start with cl := cl }
  | .error _ => start

def overwrites : List Op := [mintOp ethB 7 none none, moveOp .root ethB ethA none]

example : Claims.genesis cfg repeatedGenesis [(ethA, ⟨1, 2, 3⟩), (ethA, ⟨4, 5, 6⟩)] = .ok repeatedStart.cl ∧
    (repeatedStart.cl.claims ethA = some 30 ∧ repeatedStart.cl.signing ethA = some .regular ∧
      repeatedStart.cl.vesting ethA = some ⟨4, 5, 6⟩ ∧ repeatedStart.cl.preclaims bob = some ethA ∧
      repeatedStart.cl.total = 150 ∧ shadowed repeatedGenesis = 100 ∧
      (repeatedGenesis.map (·.value)).sum + mintedIn (accepted cfg repeatedStart overwrites) ≤ cfg.balMax ∧
      overwrittenIn (accepted cfg repeatedStart overwrites) = 50 ∧
      (run cfg repeatedStart overwrites).cl.claims ethA = some 7 ∧
      (run cfg repeatedStart overwrites).cl.claims ethB = none ∧ (run cfg repeatedStart overwrites).cl.total = 157) :=
  ⟨rfl, by decide +kernel⟩

end Verif
