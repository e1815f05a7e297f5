import Verif.Proofs.Frame
import Verif.Proofs.Balances
import Verif.Spec.Claims

/-!
# Lemmas for claims
-/

namespace Verif

open Claims

/-! ### The message -/

theorem revDigits_eq (fuel n : Nat) (hn : n ≠ 0) (hf : n ≤ fuel) (fuel' : Nat) (hf' : n ≤ fuel') (ds : List Char) :
    (Nat.toDigitsCore 10 fuel' n ds).map (fun ch => UInt8.ofNat ch.toNat) =
      (revDigits fuel n).reverse ++ ds.map (fun ch => UInt8.ofNat ch.toNat) := by
  induction fuel generalizing n fuel' ds with
  | zero => omega
  | succ fuel ih =>
    cases fuel' with
    | zero => omega
    | succ fuel' =>
      have hc : (n % 10).digitChar.toNat = 48 + n % 10 := Nat.toNat_digitChar_of_lt_ten (by omega)
      simp only [Nat.toDigitsCore, revDigits, hn, if_false]
      by_cases h : n / 10 = 0
      · have : revDigits fuel 0 = [] := by cases fuel <;> simp [revDigits]
        simp [h, this, hc]
      · rw [if_neg h, ih (n / 10) h (by omega) fuel' (by omega)]
        simp [hc]

theorem decimal_eq (n : Nat) (hn : n ≠ 0) : decimal n = (revDigits n n).reverse := by
  unfold decimal Nat.toDigits
  rw [revDigits_eq n n hn (Nat.le_refl _) (n + 1) (by omega)]
  simp

theorem nibble_eq : ∀ x : UInt8, [nibble (x / 16), nibble (x % 16)] = [hexDigit (x.toNat / 16), hexDigit (x.toNat % 16)] := by
  have h : ∀ n : Fin 256, [nibble (UInt8.ofNat n.val / 16), nibble (UInt8.ofNat n.val % 16)] =
      [hexDigit ((UInt8.ofNat n.val).toNat / 16), hexDigit ((UInt8.ofNat n.val).toNat % 16)] := by decide +kernel
  intro x
  have := h ⟨x.toNat, x.toNat_lt⟩
  simpa using this

theorem toAsciiHex_eq (b : Bytes) : toAsciiHex b = hexOf b := by
  induction b with
  | nil => rfl
  | cons x b ih =>
    have hx := nibble_eq x
    simp only [List.cons.injEq, and_true] at hx
    show nibble (x / 16) :: nibble (x % 16) :: toAsciiHex b = [hexDigit (x.toNat / 16), hexDigit (x.toNat % 16)] ++ hexOf b
    rw [ih, hx.1, hx.2]; rfl

theorem hexOf_length (b : Bytes) : (hexOf b).length = 2 * b.length := by
  induction b with
  | nil => rfl
  | cons x b ih =>
    show ([hexDigit (x.toNat / 16), hexDigit (x.toNat % 16)] ++ hexOf b).length = _
    simp [ih]; omega

theorem hexDigits_inj : ∀ x y : UInt8, hexDigit (x.toNat / 16) = hexDigit (y.toNat / 16) →
    hexDigit (x.toNat % 16) = hexDigit (y.toNat % 16) → x = y := by
  have h : ∀ a b : Fin 16, hexDigit a.val = hexDigit b.val → a = b := by decide +kernel
  intro x y h1 h2
  have hx := x.toNat_lt
  have hy := y.toNat_lt
  have e1 := h ⟨x.toNat / 16, by omega⟩ ⟨y.toNat / 16, by omega⟩ h1
  have e2 := h ⟨x.toNat % 16, by omega⟩ ⟨y.toNat % 16, by omega⟩ h2
  simp only [Fin.mk.injEq] at e1 e2
  apply UInt8.toNat_inj.mp
  omega

theorem hexOf_inj (a b : Bytes) (h : hexOf a = hexOf b) : a = b := by
  induction a generalizing b with
  | nil =>
    cases b with
    | nil => rfl
    | cons y b => have := congrArg List.length h; rw [hexOf_length, hexOf_length] at this; simp at this
  | cons x a ih =>
    cases b with
    | nil => have := congrArg List.length h; rw [hexOf_length, hexOf_length] at this; simp at this
    | cons y b =>
      have h' : hexDigit (x.toNat / 16) :: hexDigit (x.toNat % 16) :: hexOf a =
        hexDigit (y.toNat / 16) :: hexDigit (y.toNat % 16) :: hexOf b := h
      simp only [List.cons.injEq] at h'
      rw [hexDigits_inj x y h'.1 h'.2.1, ih b h'.2.2]

theorem message_eq (c : Cfg) (dest : AccountId) (st : Bytes) :
    ethereumSignableMessage c (toAsciiHex dest.val) st = personalMessage (claimPayload c.claimsPrefix dest st) := by
  have hlen : (claimPayload c.claimsPrefix dest st).length = c.claimsPrefix.length + (hexOf dest.val).length + st.length := by
    simp [claimPayload, Nat.add_assoc]
  have hne : c.claimsPrefix.length + (hexOf dest.val).length + st.length ≠ 0 := by
    rw [hexOf_length, dest.property]; omega
  have hh : (asciiBytes "Ethereum Signed Message:\n") = asciiBytes "Ethereum Signed Message:" ++ [10] := by decide +kernel
  unfold ethereumSignableMessage personalMessage messageHeader
  rw [hlen, decimal_eq _ hne, toAsciiHex_eq, hh]
  simp [claimPayload]

theorem ethRecover_iff (c : Cfg) (sig : EthSig) (dest : AccountId) (st : Bytes) (g : EthAddr) :
    ethRecover c sig (toAsciiHex dest.val) st = some g ↔ SignedBy c g sig dest st := by
  unfold ethRecover SignedBy
  rw [message_eq]
  simp only [Option.map_eq_some_iff]
  constructor
  · rintro ⟨pk, h, rfl⟩; exact ⟨pk, h, rfl⟩
  · rintro ⟨pk, h, hg⟩; exact ⟨pk, h, Subtype.ext hg.symm⟩

/-- The number of decimal digits grows with the number. -/
theorem revDigits_length_mono (f1 f2 : Nat) (a b : Nat) (h1 : a ≤ f1) (h2 : b ≤ f2) (h : a ≤ b) :
    (revDigits f1 a).length ≤ (revDigits f2 b).length := by
  induction f1 generalizing f2 a b with
  | zero => simp [revDigits]
  | succ f1 ih =>
    by_cases ha : a = 0
    · simp [revDigits, ha]
    · cases f2 with
      | zero => omega
      | succ f2 =>
        have hb : b ≠ 0 := by omega
        simp only [revDigits, ha, hb, if_false, List.length_cons]
        have := ih f2 (a / 10) (b / 10) (by omega) (by omega) (by omega)
        omega

theorem personalMessage_inj (p q : Bytes) (hp : p ≠ []) (hq : q ≠ []) (h : personalMessage p = personalMessage q) :
    p = q := by
  have hp' : p.length ≠ 0 := by simpa using hp
  have hq' : q.length ≠ 0 := by simpa using hq
  unfold personalMessage at h
  simp only [List.cons_append, List.cons.injEq, true_and, List.append_assoc, List.append_cancel_left_eq] at h
  rw [decimal_eq _ hp', decimal_eq _ hq'] at h
  have hl := congrArg List.length h
  simp only [List.length_append, List.length_reverse] at hl
  have heq : p.length = q.length := by
    rcases Nat.lt_trichotomy p.length q.length with hlt | heq | hlt
    · have := revDigits_length_mono p.length q.length p.length q.length (by omega) (by omega) (by omega)
      omega
    · exact heq
    · have := revDigits_length_mono q.length p.length q.length p.length (by omega) (by omega) (by omega)
      omega
  rw [heq, List.append_cancel_left_eq] at h
  exact h

/-! ### Effects -/

/-- How a claim may be authorised. -/
def Authorised (c : Cfg) (s : Chain) (op : Op) (g : EthAddr) (dest : AccountId) : Prop :=
  (∃ sig, op = .ext .none (.claims (.claim dest sig)) ∧ SignedBy c g sig dest [] ∧ s.cl.signing g = none) ∨
  (∃ sig st, op = .ext .none (.claims (.claimAttest dest sig st)) ∧ SignedBy c g sig dest st ∧
    ∀ k, s.cl.signing g = some k → k.statement = st) ∨
  (∃ st, op = .ext (.signed dest) (.claims (.attest st)) ∧ s.cl.preclaims dest = some g ∧
    ∀ k, s.cl.signing g = some k → k.statement = st)

/-- The ways in which an operation affects pallet claims. -/
inductive ClaimsEffect (c : Cfg) (s s' : Chain) (op : Op) : Prop where
  | same (h : s'.cl = s.cl) (hop : Part.claims ∉ op.parts)
  | paid (g : EthAddr) (dest : AccountId) (due : Nat) (auth : Authorised c s op g dest)
      (hc : s.cl.claims g = some due) (ht : due ≤ s.cl.total) (hp : Paid c s g dest due s'.bal)
      (total : s'.cl.total = s.cl.total - due) (claims : s'.cl.claims = upd s.cl.claims g none)
      (vesting : s'.cl.vesting = upd s.cl.vesting g none) (signing : s'.cl.signing = upd s.cl.signing g none)
      (events : s'.cl.events = .claimed dest g due :: s.cl.events)
  | mint (who : EthAddr) (v : Nat) (vest : Option VestingInfo) (st : Option StatementKind)
      (hop : op = .ext .root (.claims (.mintClaim who v vest st)))
      (total : plainAdd c c.balMax s.cl.total v = .ok s'.cl.total) (claims : s'.cl.claims = upd s.cl.claims who (some v))
      (vesting : s'.cl.vesting = setSome s.cl.vesting who vest) (signing : s'.cl.signing = setSome s.cl.signing who st)
      (preclaims : s'.cl.preclaims = s.cl.preclaims) (events : s'.cl.events = s.cl.events)
  | move (o : Origin) (old new : EthAddr) (p : Option AccountId) (hop : op = .ext o (.claims (.moveClaim old new p)))
      (auth : c.moveClaimOrigin o = true ∨ o = .root)
      (hs : s' = { s with cl := { s.cl with
        claims := moveEntry s.cl.claims old new
        vesting := moveEntry s.cl.vesting old new
        signing := moveEntry s.cl.signing old new
        preclaims := movedPreclaims s old new p } })

theorem claims_effect {c : Cfg} {s s' : Chain} {op : Op} (h : exec c s op = .ok s') : ClaimsEffect c s s' op := by
  by_cases hp : Part.claims ∈ op.parts
  · cases op with
    | ext o k =>
      cases k with
      | claims k =>
        cases k with
        | claim dest sig =>
          obtain ⟨g, rfl, h1, h2, h3⟩ := claim_ok.mp h
          obtain ⟨due, bal, h4, h5, h6, rfl⟩ := processClaim_ok.mp h3
          exact .paid g dest due (.inl ⟨sig, rfl, (ethRecover_iff ..).mp h1, h2⟩) h4 h5 h6 rfl rfl rfl rfl rfl
        | claimAttest dest sig st =>
          obtain ⟨g, rfl, h1, h2, h3⟩ := claimAttest_ok.mp h
          obtain ⟨due, bal, h4, h5, h6, rfl⟩ := processClaim_ok.mp h3
          exact .paid g dest due (.inr (.inl ⟨sig, st, rfl, (ethRecover_iff ..).mp h1, h2⟩)) h4 h5 h6 rfl rfl rfl rfl rfl
        | attest st =>
          obtain ⟨who, g, s1, rfl, h1, h2, h3, rfl⟩ := attest_ok.mp h
          obtain ⟨due, bal, h4, h5, h6, rfl⟩ := processClaim_ok.mp h3
          exact .paid g who due (.inr (.inr ⟨st, rfl, h1, h2⟩)) h4 h5 h6 rfl rfl rfl rfl rfl
        | mintClaim who v vest st =>
          obtain ⟨total, rfl, h1, rfl⟩ := mintClaim_ok.mp h
          exact .mint who v vest st rfl h1 rfl rfl rfl rfl rfl
        | moveClaim old new p =>
          obtain ⟨h1, rfl⟩ := moveClaim_ok.mp h
          exact .move o old new p rfl h1 rfl
      | _ => simp [Op.parts, Call.parts] at hp
    | _ => simp [Op.parts] at hp
  · exact .same (exec_frame h .claims hp) hp

/-! ### Failures -/

theorem addVesting_error {ms : Nat} {b : Balances} {n : Nat} {a : AccountId} {v : VestingInfo} {e : BalErr}
    (h : b.addVesting ms n a v = .error e) : v.locked ≠ 0 ∧ (v.perBlock = 0 ∨ ms ≤ (b.schedules a).length) := by
  unfold Balances.addVesting at h
  split at h
  · simp at h
  · rename_i h0
    split at h
    · exact ⟨h0, .inl ‹_›⟩
    · split at h
      · exact ⟨h0, .inr ‹_›⟩
      · simp at h

theorem processClaim_error {c : Cfg} {s : Chain} {g : EthAddr} {d : AccountId} {e : Err}
    (h : processClaim c s g d = .error e) :
    (e = .signerHasNoClaim ∧ s.cl.claims g = none) ∨
    (e = .potUnderflow ∧ ∃ due, s.cl.claims g = some due ∧ s.cl.total < due) ∨
    (e = .vestedBalanceExists ∧ ∃ v, s.cl.vesting g = some v ∧ s.bal.schedules d ≠ []) ∨
    (e = .panic ∧ ∃ v, s.cl.vesting g = some v ∧ v.locked ≠ 0 ∧ s.bal.schedules d = [] ∧
      (v.perBlock = 0 ∨ c.maxSchedules = 0)) := by
  unfold processClaim at h
  simp only [bind_eq_error, okOr_eq_error, okOr_eq_ok, ensure_eq_error] at h
  rcases h with ⟨h, rfl⟩ | ⟨due, hd, ⟨h, rfl⟩ | ⟨_, hens, h⟩⟩
  · exact .inl ⟨rfl, h⟩
  · exact .inr (.inl ⟨rfl, due, hd, by simpa using h⟩)
  · cases hv : s.cl.vesting g with
    | none =>
      rw [hv] at h
      simp [pure, Except.pure, bind_eq_error] at h
    | some v =>
      rw [hv] at h
      simp only [Option.isSome_some, Bool.true_and, Bool.not_eq_eq_eq_not, Bool.not_false] at h
      rcases h with ⟨h, rfl⟩ | ⟨_, hens, h⟩
      · refine .inr (.inr (.inl ⟨rfl, v, rfl, ?_⟩))
        intro hn
        rw [vestingBalance_none.mpr hn] at h
        simp at h
      · have hn : s.bal.schedules d = [] := by
          rw [← vestingBalance_none (n := s.block)]
          simp only [ensure_eq_ok, Bool.not_eq_true', Option.isSome_eq_false_iff, Option.isNone_iff_eq_none] at hens
          exact hens
        rw [bind_eq_error] at h
        rcases h with h | ⟨_, _, h⟩
        · cases ha : (s.bal.depositCreating c.ed c.balMax d due).addVesting c.maxSchedules s.block d v with
          | ok b => simp [mapErr, ha] at h
          | error e' =>
            simp only [mapErr, ha, Except.error.injEq] at h
            obtain ⟨h1, h2⟩ := addVesting_error ha
            refine .inr (.inr (.inr ⟨h.symm, v, rfl, h1, hn, ?_⟩))
            rcases h2 with h2 | h2
            · exact .inl h2
            · right
              rw [Balances.depositCreating_schedules, hn] at h2
              simpa using h2
        · simp at h

theorem claim_error {c : Cfg} {s : Chain} {o : Origin} {dest : AccountId} {sig : EthSig} {e : Err}
    (h : claim c s o dest sig = .error e) :
    (e = .badOrigin ∧ o ≠ .none) ∨ (e = .invalidEthereumSignature ∧ ∀ g, ¬ SignedBy c g sig dest []) ∨
    ∃ g, SignedBy c g sig dest [] ∧ ((e = .invalidStatement ∧ s.cl.signing g ≠ none) ∨
      processClaim c s g dest = .error e) := by
  unfold claim at h
  simp only [bind_eq_error, okOr_eq_error, okOr_eq_ok, ensure_eq_error] at h
  rcases h with h | ⟨_, _, ⟨h, rfl⟩ | ⟨g, hg, h⟩⟩
  · left; cases o <;> simp_all [ensureNone]
  · right; left
    refine ⟨rfl, fun g hg => ?_⟩
    rw [← ethRecover_iff, h] at hg; simp at hg
  · right; right
    refine ⟨g, (ethRecover_iff ..).mp hg, ?_⟩
    rcases h with ⟨h, rfl⟩ | ⟨_, _, h⟩
    · exact .inl ⟨rfl, fun hn => by simp [hn] at h⟩
    · exact .inr h

theorem claimAttest_error {c : Cfg} {s : Chain} {o : Origin} {dest : AccountId} {sig : EthSig} {st : Bytes} {e : Err}
    (h : claimAttest c s o dest sig st = .error e) :
    (e = .badOrigin ∧ o ≠ .none) ∨ (e = .invalidEthereumSignature ∧ ∀ g, ¬ SignedBy c g sig dest st) ∨
    ∃ g, SignedBy c g sig dest st ∧ ((e = .invalidStatement ∧ ∃ k, s.cl.signing g = some k ∧ k.statement ≠ st) ∨
      processClaim c s g dest = .error e) := by
  unfold claimAttest at h
  simp only [bind_eq_error, okOr_eq_error, okOr_eq_ok, ensure_eq_error] at h
  rcases h with h | ⟨_, _, ⟨h, rfl⟩ | ⟨g, hg, h⟩⟩
  · left; cases o <;> simp_all [ensureNone]
  · right; left
    refine ⟨rfl, fun g hg => ?_⟩
    rw [← ethRecover_iff, h] at hg; simp at hg
  · right; right
    refine ⟨g, (ethRecover_iff ..).mp hg, ?_⟩
    rcases h with ⟨h, rfl⟩ | ⟨_, _, h⟩
    · left
      refine ⟨rfl, ?_⟩
      cases hk : s.cl.signing g with
      | none => simp [hk] at h
      | some k => exact ⟨k, rfl, by simpa [hk, toText_eq] using h⟩
    · exact .inr h

theorem attest_error {c : Cfg} {s : Chain} {o : Origin} {st : Bytes} {e : Err}
    (h : attest c s o st = .error e) :
    (e = .badOrigin ∧ ∀ a, o ≠ .signed a) ∨ ∃ a, o = .signed a ∧ ((e = .senderHasNoClaim ∧ s.cl.preclaims a = none) ∨
      ∃ g, s.cl.preclaims a = some g ∧ ((e = .invalidStatement ∧ ∃ k, s.cl.signing g = some k ∧ k.statement ≠ st) ∨
      processClaim c s g a = .error e)) := by
  unfold attest at h
  simp only [bind_eq_error, okOr_eq_error, okOr_eq_ok, ensure_eq_error] at h
  rcases h with h | ⟨a, ha, h⟩
  · left; cases o <;> simp_all [ensureSigned]
  · right
    have hao : o = .signed a := by cases o <;> simp_all [ensureSigned]
    refine ⟨a, hao, ?_⟩
    rcases h with ⟨h, rfl⟩ | ⟨g, hg, h⟩
    · exact .inl ⟨rfl, h⟩
    · right
      refine ⟨g, hg, ?_⟩
      rcases h with ⟨h, rfl⟩ | ⟨_, _, h⟩
      · left
        refine ⟨rfl, ?_⟩
        cases hk : s.cl.signing g with
        | none => simp [hk] at h
        | some k => exact ⟨k, rfl, by simpa [hk, toText_eq] using h⟩
      · rcases h with h | ⟨_, _, h⟩
        · exact .inr h
        · simp at h

/-! ### Sums -/

theorem openClaims_cons (m : EthAddr → Option Nat) (a : EthAddr) (l : List EthAddr) :
    openClaims m (a :: l) = (m a).getD 0 + openClaims m l := by simp [openClaims]

theorem openClaims_congr {m m' : EthAddr → Option Nat} {l : List EthAddr} (h : ∀ a ∈ l, m a = m' a) :
    openClaims m l = openClaims m' l := by
  unfold openClaims
  congr 1
  apply List.map_congr_left
  intro a ha; rw [h a ha]

theorem openClaims_upd_notMem {m : EthAddr → Option Nat} {g : EthAddr} {v : Option Nat} {l : List EthAddr}
    (h : g ∉ l) : openClaims (upd m g v) l = openClaims m l :=
  openClaims_congr fun a ha => upd_ne _ _ (fun e => h (e ▸ ha))

theorem openClaims_upd_mem {m : EthAddr → Option Nat} {g : EthAddr} {v : Option Nat} {l : List EthAddr}
    (hn : l.Nodup) (h : g ∈ l) : openClaims (upd m g v) l + (m g).getD 0 = openClaims m l + v.getD 0 := by
  induction l with
  | nil => simp at h
  | cons x l ih =>
    rw [openClaims_cons, openClaims_cons]
    obtain ⟨hx, hl⟩ := List.nodup_cons.mp hn
    by_cases he : g = x
    · subst he
      rw [upd_same, openClaims_upd_notMem hx]; omega
    · have := ih hl ((List.mem_cons.mp h).resolve_left he)
      rw [upd_ne _ _ (Ne.symm he)]; omega

/-- The sum over the list extended by one address. -/
theorem openClaims_insert (m : EthAddr → Option Nat) (g : EthAddr) (l : List EthAddr) (hn : l.Nodup) :
    ∃ l' : List EthAddr, l'.Nodup ∧ g ∈ l' ∧ (∀ a ∈ l, a ∈ l') ∧
      openClaims (upd m g none) l = openClaims (upd m g none) l' ∧
      openClaims (upd m g none) l + (m g).getD 0 = openClaims m l' := by
  by_cases h : g ∈ l
  · exact ⟨l, hn, h, fun _ h => h, rfl, by have := openClaims_upd_mem (m := m) (v := none) hn h; simpa using this⟩
  · refine ⟨g :: l, List.nodup_cons.mpr ⟨h, hn⟩, by simp, fun _ h => by simp [h], ?_, ?_⟩
    · rw [openClaims_cons, upd_same]; simp
    · rw [openClaims_cons, openClaims_upd_notMem h]; omega

theorem plainAdd_fits {c : Cfg} {a b n : Nat} (h : plainAdd c c.balMax a b = .ok n)
    (hf : c.overflowChecks = true ∨ a + b ≤ c.balMax) : n = a + b := by
  unfold plainAdd at h
  split at h
  · simpa using h.symm
  · rcases hf with hf | hf
    · rw [if_pos hf] at h; simp at h
    · omega

theorem plainAdd_mod {c : Cfg} {a b n : Nat} (h : plainAdd c c.balMax a b = .ok n) :
    n % (c.balMax + 1) = (a + b) % (c.balMax + 1) := by
  unfold plainAdd at h
  split at h
  · simp only [Except.ok.injEq] at h; rw [h]
  · split at h
    · simp at h
    · simp only [Except.ok.injEq] at h; rw [← h, Nat.mod_mod]

theorem mintedIn_snoc (acc : List (Chain × Op)) (p : Chain × Op) : mintedIn (acc ++ [p]) = mintedIn acc + p.2.minted := by
  simp [mintedIn]

theorem moveEntry_apply {V : Type} (m : EthAddr → Option V) (old new x : EthAddr) :
    moveEntry m old new x =
      if old = new then m x
      else if x = new then (m old).or (m new)
      else if x = old then none
      else m x := by
  unfold moveEntry
  cases h : m old with
  | none =>
    simp only [Option.none_or]
    split
    · rfl
    · split
      · simp_all
      · split <;> simp_all
  | some v =>
    simp only [upd_apply, Option.some_or]
    split
    · split <;> simp_all
    · split <;> simp_all

theorem solvent_exec {c : Cfg} {s s' : Chain} {op : Op} (hs : Solvent s) (h : exec c s op = .ok s')
    (hf : c.overflowChecks = true ∨ s.cl.total + op.minted ≤ c.balMax) : Solvent s' := by
  intro l hl
  rcases claims_effect h with ⟨h, _⟩ | ⟨g, dest, due, auth, hc, ht, hp, total, claims, _, _, _⟩ |
    ⟨who, v, vest, st, hop, total, claims, _, _, _, _⟩ | ⟨o, old, new, p, hop, auth, rfl⟩
  · rw [h]; exact hs l hl
  · obtain ⟨l', hl', _, _, _, e2⟩ := openClaims_insert s.cl.claims g l hl
    have := hs l' hl'
    rw [claims, total]
    rw [hc] at e2
    simp only [Option.getD_some] at e2
    omega
  · subst hop
    have ht := plainAdd_fits total (by simpa [Op.minted] using hf)
    rw [claims, ht]
    have := hs l hl
    by_cases hm : who ∈ l
    · have := openClaims_upd_mem (m := s.cl.claims) (v := some v) hl hm
      simp only [Option.getD_some] at this
      omega
    · rw [openClaims_upd_notMem hm]; omega
  · show openClaims (moveEntry s.cl.claims old new) l ≤ s.cl.total
    unfold moveEntry
    cases ho : s.cl.claims old with
    | none => exact hs l hl
    | some v =>
      simp only
      obtain ⟨l', hl', _, _, e1, e2⟩ := openClaims_insert s.cl.claims old l hl
      have := hs l' hl'
      rw [ho] at e2
      simp only [Option.getD_some] at e2
      by_cases hm : new ∈ l
      · have := openClaims_upd_mem (m := upd s.cl.claims old none) (v := some v) hl hm
        simp only [Option.getD_some] at this
        omega
      · rw [openClaims_upd_notMem hm]; omega

/-- There are always finitely many open claims. -/
theorem finite_exec {c : Cfg} {s s' : Chain} {op : Op} (hs : ∃ l : List EthAddr, ∀ a, s.cl.claims a ≠ none → a ∈ l)
    (h : exec c s op = .ok s') : ∃ l : List EthAddr, ∀ a, s'.cl.claims a ≠ none → a ∈ l := by
  obtain ⟨l, hl⟩ := hs
  rcases claims_effect h with ⟨h, _⟩ | ⟨g, dest, due, auth, hc, ht, hp, total, claims, _, _, _⟩ |
    ⟨who, v, vest, st, hop, total, claims, _, _, _, _⟩ | ⟨o, old, new, p, hop, auth, rfl⟩
  · exact ⟨l, by rw [h]; exact hl⟩
  · refine ⟨l, fun a ha => ?_⟩
    rw [claims] at ha
    by_cases he : a = g
    · rw [he] at ha; simp at ha
    · rw [upd_ne _ _ he] at ha; exact hl a ha
  · refine ⟨who :: l, fun a ha => ?_⟩
    rw [claims] at ha
    by_cases he : a = who
    · simp [he]
    · rw [upd_ne _ _ he] at ha; exact List.mem_cons_of_mem _ (hl a ha)
  · refine ⟨new :: l, fun a ha => ?_⟩
    change moveEntry s.cl.claims old new a ≠ none at ha
    rw [moveEntry_apply] at ha
    by_cases he : a = new
    · simp [he]
    · refine List.mem_cons_of_mem _ (hl a ?_)
      rw [if_neg he] at ha
      split at ha
      · exact ha
      · split at ha
        · simp at ha
        · exact ha

theorem exact_exec {c : Cfg} {s s' : Chain} {op : Op} (hs : Exact s) (h : exec c s op = .ok s')
    (hno : NoOverwrite (s, op))
    (hf : c.overflowChecks = true ∨ s.cl.total + op.minted ≤ c.balMax) : Exact s' := by
  obtain ⟨hfin, hs⟩ := hs
  refine ⟨finite_exec hfin h, ?_⟩
  intro l hl hcov
  rcases claims_effect h with ⟨h, _⟩ | ⟨g, dest, due, auth, hc, ht, hp, total, claims, _, _, _⟩ |
    ⟨who, v, vest, st, hop, total, claims, _, _, _, _⟩ | ⟨o, old, new, p, hop, auth, rfl⟩
  · rw [h] at hcov ⊢; exact hs l hl hcov
  · obtain ⟨l', hl', hg, hsub, _, e2⟩ := openClaims_insert s.cl.claims g l hl
    rw [claims] at hcov
    have := hs l' hl' (by
      intro a ha
      by_cases he : a = g
      · rw [he]; exact hg
      · exact hsub a (hcov a (by rw [upd_ne _ _ he]; exact ha)))
    rw [claims, total]
    rw [hc] at e2
    simp only [Option.getD_some] at e2
    omega
  · subst hop
    have ht := plainAdd_fits total (by simpa [Op.minted] using hf)
    have hnone : s.cl.claims who = none := hno
    rw [claims] at hcov
    have hm : who ∈ l := hcov who (by simp)
    have := hs l hl (by
      intro a ha
      by_cases he : a = who
      · rw [he]; exact hm
      · exact hcov a (by rw [upd_ne _ _ he]; exact ha))
    rw [claims, ht]
    have := openClaims_upd_mem (m := s.cl.claims) (v := some v) hl hm
    rw [hnone] at this
    simp only [Option.getD_some, Option.getD_none] at this
    omega
  · subst hop
    have hno' : old = new ∨ s.cl.claims old = none ∨ s.cl.claims new = none := hno
    change ∀ a, moveEntry s.cl.claims old new a ≠ none → a ∈ l at hcov
    show openClaims (moveEntry s.cl.claims old new) l = s.cl.total
    have hmv := moveEntry_apply s.cl.claims old new
    by_cases hon : old = new
    · have : moveEntry s.cl.claims old new = s.cl.claims := by funext x; rw [hmv]; simp [hon]
      rw [this] at hcov ⊢
      exact hs l hl hcov
    · cases ho : s.cl.claims old with
      | none =>
        have : moveEntry s.cl.claims old new = s.cl.claims := by simp [moveEntry, ho]
        rw [this] at hcov ⊢
        exact hs l hl hcov
      | some v =>
        have hnew : s.cl.claims new = none := by
          rcases hno' with h | h | h
          · exact absurd h hon
          · rw [ho] at h; simp at h
          · exact h
        have hm : new ∈ l := hcov new (by rw [hmv]; simp [hon, ho])
        obtain ⟨l', hl', hg, hsub, e1, e2⟩ := openClaims_insert s.cl.claims old l hl
        have h1 := hs l' hl' (by
          intro a ha
          by_cases he : a = old
          · rw [he]; exact hg
          · by_cases he' : a = new
            · rw [he'] at ha; exact absurd hnew ha
            · exact hsub a (hcov a (by rw [hmv]; simp only [hon, he, he', if_false]; exact ha)))
        have h2 := openClaims_upd_mem (m := upd s.cl.claims old none) (v := some v) hl hm
        rw [upd_ne _ _ (Ne.symm hon), hnew] at h2
        rw [ho] at e2
        simp only [Option.getD_some, Option.getD_none] at e2 h2
        simp only [moveEntry, ho]
        omega

/-- Total and payments. -/
theorem conserved_run (c : Cfg) (s0 : Chain) (ops : List Op) (h0 : s0.cl.events = [])
    (hf : c.overflowChecks = true ∨ Fits c s0.cl.total (accepted c s0 ops)) :
    (run c s0 ops).cl.total + paidOut (run c s0 ops) = s0.cl.total + mintedIn (accepted c s0 ops) := by
  revert hf
  refine history_induction (c := c) (s0 := s0) (P := fun s acc =>
    (c.overflowChecks = true ∨ Fits c s0.cl.total acc) → s.cl.total + paidOut s = s0.cl.total + mintedIn acc) ?_ ?_ ops
  · intro _; simp [paidOut, h0, mintedIn]
  · intro s s' op acc ih hx hf
    rw [mintedIn_snoc]
    have hf' : c.overflowChecks = true ∨ Fits c s0.cl.total acc := by
      rcases hf with h | h
      · exact .inl h
      · right; unfold Fits at h ⊢; rw [mintedIn_snoc] at h; omega
    have ih := ih hf'
    rcases claims_effect hx with ⟨h, hop⟩ | ⟨g, dest, due, auth, hc, ht, hp, total, claims, _, _, events⟩ |
      ⟨who, v, vest, st, hop, total, claims, _, _, _, events⟩ | ⟨o, old, new, p, hop, auth, rfl⟩
    · have hm : op.minted = 0 := by
        cases op with
        | ext o k =>
          cases k with
          | claims k => cases k <;> simp [Op.parts, Call.parts] at hop
          | _ => rfl
        | _ => rfl
      simp only [paidOut, h, hm] at *
      omega
    · have hm : op.minted = 0 := by
        rcases auth with ⟨_, rfl, _⟩ | ⟨_, _, rfl, _⟩ | ⟨_, rfl, _⟩ <;> rfl
      simp only [paidOut, events, List.map_cons, List.sum_cons, ClEvent.amount, total, hm] at *
      omega
    · subst hop
      have ht := plainAdd_fits total (by
        rcases hf with h | h
        · exact .inl h
        · right; unfold Fits at h; rw [mintedIn_snoc] at h; simp only [Op.minted] at h; omega)
      simp only [paidOut, events, Op.minted, ht] at *
      omega
    · subst hop
      simp only [paidOut, Op.minted] at *
      omega

end Verif
