import Verif.Spec.Refusal
import Verif.Proofs.TeerexInv
import Verif.Proofs.Der

/-!
# Lemmas about lists of conditions, and the conditions of attestation
-/

namespace Verif

variable {ε ε' α β : Type}

/-- The computation fails exactly with the error of the first condition that does not hold. -/
def Checks (m : Except ε α) (l : List (ε × Prop)) : Prop := ∀ e, m = .error e ↔ FirstFailing l e

theorem firstFailing_append {l1 l2 : List (ε × Prop)} {e : ε} :
    FirstFailing (l1 ++ l2) e ↔ FirstFailing l1 e ∨ (AllHold l1 ∧ FirstFailing l2 e) := by
  induction l1 with
  | nil => simp [FirstFailing, AllHold]
  | cons p l ih =>
    obtain ⟨e', P⟩ := p
    have h : AllHold ((e', P) :: l) ↔ P ∧ AllHold l := by simp [AllHold]
    simp only [List.cons_append, FirstFailing, ih, h]
    constructor
    · rintro (h | ⟨h, h1 | ⟨h1, h2⟩⟩)
      · exact .inl (.inl h)
      · exact .inl (.inr ⟨h, h1⟩)
      · exact .inr ⟨⟨h, h1⟩, h2⟩
    · rintro ((h | ⟨h, h1⟩) | ⟨⟨h, h1⟩, h2⟩)
      · exact .inl h
      · exact .inr ⟨h, .inl h1⟩
      · exact .inr ⟨h, .inr ⟨h1, h2⟩⟩

theorem firstFailing_exists {l : List (ε × Prop)} : (∃ e, FirstFailing l e) ↔ ¬AllHold l := by
  induction l with
  | nil => simp [FirstFailing, AllHold]
  | cons p l ih =>
    obtain ⟨e', P⟩ := p
    have h : AllHold ((e', P) :: l) ↔ P ∧ AllHold l := by simp [AllHold]
    rw [h]
    by_cases hP : P
    · simp only [FirstFailing, hP, not_true, false_and, true_and, false_or, ih]
    · simp [FirstFailing, hP]

theorem firstFailing_unique {l : List (ε × Prop)} {e e' : ε} (h : FirstFailing l e) (h' : FirstFailing l e') : e = e' := by
  induction l with
  | nil => exact h.elim
  | cons p l ih =>
    rcases h with ⟨h1, rfl⟩ | ⟨h1, h2⟩ <;> rcases h' with ⟨h1', rfl⟩ | ⟨h1', h2'⟩
    · rfl
    · exact absurd h1' h1
    · exact absurd h1 h1'
    · exact ih h2 h2'

theorem Checks.ok_iff {m : Except ε α} {l : List (ε × Prop)} (h : Checks m l) : (∃ a, m = .ok a) ↔ AllHold l := by
  have h1 : (∃ e, m = .error e) ↔ ∃ e, FirstFailing l e := ⟨fun ⟨e, he⟩ => ⟨e, (h e).mp he⟩, fun ⟨e, he⟩ => ⟨e, (h e).mpr he⟩⟩
  rw [firstFailing_exists] at h1
  cases m with
  | ok a => simpa using h1
  | error e => simpa using h1

theorem checks_nil {a : α} : Checks (Except.ok a : Except ε α) [] := by intro e; simp [FirstFailing]

theorem checks_pure {a : α} : Checks (pure a : Except ε α) [] := checks_nil

theorem checks_append {m : Except ε α} {f : α → Except ε β} {l1 l2 : List (ε × Prop)} (h1 : Checks m l1)
    (h2 : ∀ a, m = .ok a → Checks (f a) l2) : Checks (m >>= f) (l1 ++ l2) := by
  intro e
  rw [firstFailing_append, bind_eq_error, h1 e]
  constructor
  · rintro (h | ⟨a, ha, h⟩)
    · exact .inl h
    · exact .inr ⟨h1.ok_iff.mp ⟨a, ha⟩, (h2 a ha e).mp h⟩
  · rintro (h | ⟨ha, h⟩)
    · exact .inl h
    · obtain ⟨a, ha⟩ := h1.ok_iff.mpr ha
      exact .inr ⟨a, ha, (h2 a ha e).mpr h⟩

theorem checks_bind {m : Except ε α} {f : α → Except ε β} {p : ε × Prop} {l : List (ε × Prop)} (h1 : Checks m [p])
    (h2 : ∀ a, m = .ok a → Checks (f a) l) : Checks (m >>= f) (p :: l) := checks_append h1 h2

/-- The last step. -/
theorem checks_last {m : Except ε α} {f : α → Except ε β} {l : List (ε × Prop)} (h1 : Checks m l)
    (h2 : ∀ a, m = .ok a → ∃ b, f a = .ok b) : Checks (m >>= f) l := by
  have h := checks_append (f := f) h1 (l2 := []) fun a ha => by
    obtain ⟨b, hb⟩ := h2 a ha
    rw [hb]; exact checks_nil
  rwa [List.append_nil] at h

/-- A step that cannot fail. -/
theorem checks_skip {m : Except ε α} {f : α → Except ε β} {a : α} {l : List (ε × Prop)} (h1 : m = .ok a)
    (h2 : Checks (f a) l) : Checks (m >>= f) l := by
  subst h1; exact h2

theorem checks_ensure {p : Bool} {e : ε} {P : Prop} (h : p = true ↔ P) : Checks (ensure p e) [(e, P)] := by
  intro e'
  rw [ensure_eq_error]
  simp only [FirstFailing, and_false, or_false, ← h, Bool.not_eq_true]
  exact and_congr_right fun _ => eq_comm

theorem checks_okOr {x : Option α} {e : ε} {P : Prop} (h : x ≠ none ↔ P) : Checks (okOr x e) [(e, P)] := by
  intro e'
  rw [okOr_eq_error]
  simp only [FirstFailing, and_false, or_false, ← h, ne_eq, Decidable.not_not]
  exact and_congr_right fun _ => eq_comm

theorem checks_mapErr {m : Except ε α} {f : ε → ε'} {l : List (ε × Prop)} (h : Checks m l) :
    Checks (mapErr f m) (l.map fun p => (f p.1, p.2)) := by
  intro e'
  rw [mapErr_eq_error]
  simp only [h _]
  clear h
  induction l with
  | nil => simp [FirstFailing]
  | cons p l ih =>
    obtain ⟨e1, P⟩ := p
    simp only [List.map_cons, FirstFailing, ← ih]
    constructor
    · rintro ⟨e, ⟨h, rfl⟩ | ⟨h, h2⟩, h3⟩
      · exact .inl ⟨h, h3.symm⟩
      · exact .inr ⟨h, e, h2, h3⟩
    · rintro (⟨h, rfl⟩ | ⟨h, e, h2, h3⟩)
      · exact ⟨e1, .inl ⟨h, rfl⟩, rfl⟩
      · exact ⟨e, .inr ⟨h, h2⟩, h3⟩

/-- The error handed on by teerex, if none of the conditions reports a panic. -/
theorem checks_sgx {m : Except SgxError α} {l : List (SgxError × Prop)} (h : Checks m l)
    (hl : ∀ p ∈ l, p.1 ≠ .panic) : Checks (mapErr Teerex.sgxErr m) (reported l) := by
  have h1 := checks_mapErr (f := Teerex.sgxErr) h
  have h2 : (l.map fun p => (Teerex.sgxErr p.1, p.2)) = reported l := by
    apply List.map_congr_left
    intro p hp
    have := hl p hp
    obtain ⟨e, P⟩ := p
    cases e <;> simp_all [Teerex.sgxErr]
  rwa [h2] at h1

theorem checks_signed {o : Origin} : Checks (ensureSigned o) [needSigned o] := by
  intro e
  cases o <;> simp [ensureSigned, needSigned, FirstFailing, eq_comm]

theorem checks_root {o : Origin} : Checks (ensureRoot o) [(.badOrigin, o = .root)] := by
  intro e
  cases o <;> simp [ensureRoot, FirstFailing, eq_comm]

theorem checks_none {o : Origin} : Checks (ensureNone o) [(.badOrigin, o = .none)] := by
  intro e
  cases o <;> simp [ensureNone, FirstFailing, eq_comm]

theorem checks_plainAdd {c : Cfg} {max a b : Nat} : Checks (plainAdd c max a b) [(.panic, SumOk c max (a + b))] := by
  intro e
  unfold plainAdd SumOk
  by_cases h : a + b ≤ max
  · simp [FirstFailing, h]
  · cases hc : c.overflowChecks <;> simp [FirstFailing, h, eq_comm]

/-- A condition on the signer, once the signer is known. -/
theorem signer_iff {o : Origin} {a : AccountId} {P : AccountId → Prop} (h : ensureSigned o = .ok a) : Signer o P ↔ P a := by
  rw [ensureSigned_eq_ok] at h
  subst h
  exact ⟨fun h => h a rfl, fun h b hb => by cases hb; exact h⟩

/-! ### Platform data -/

theorem intelExtension_unique {x : Ext} {cert v w : Bytes} (h : IntelExtension x cert v) (h' : IntelExtension x cert w) :
    v = w := by
  obtain ⟨l, h1, h2⟩ := h
  obtain ⟨l', h1', h2'⟩ := h'
  rw [h1] at h1'
  cases h1'
  rw [h2] at h2'
  simpa using h2'

theorem oidIntelExt_eq : oidIntelExt = extensionOid := rfl

theorem getIntelExtension_checks (x : Ext) (cert : Bytes) : Checks (getIntelExtension x cert)
    [(.intelExtensionCertificateDecodingError, x.x509Extensions cert ≠ none),
     (.intelExtensionAmbiguity, ∃ v, IntelExtension x cert v)] := by
  unfold getIntelExtension
  refine checks_bind (checks_okOr Iff.rfl) fun l hl => ?_
  rw [okOr_eq_ok] at hl
  intro e
  have key : (∃ v, IntelExtension x cert v) ↔ ∃ v, (l.filter (fun e => e.1 == oidIntelExt)).map (·.2) = [v] := by
    have hf : (l.filter fun e => e.1 = extensionOid) = l.filter (fun e => e.1 == oidIntelExt) := by
      apply List.filter_congr
      intro p _
      by_cases hp : p.1 = extensionOid <;> simp [hp, oidIntelExt_eq]
    constructor
    · rintro ⟨v, l', h1, h2⟩
      rw [hl] at h1; cases h1
      rw [hf] at h2
      exact ⟨v, by rw [h2]; rfl⟩
    · rintro ⟨v, hv⟩
      refine ⟨v, l, hl, ?_⟩
      rw [hf]
      obtain ⟨⟨k, w⟩, hm, rfl⟩ := List.map_eq_singleton_iff.mp hv
      have : (k, w) ∈ l.filter (fun e => e.1 == oidIntelExt) := by rw [hm]; simp
      have hk : k = oidIntelExt := by simpa using (List.mem_filter.mp this).2
      rw [hm, hk, oidIntelExt_eq]
  simp only [FirstFailing, key, and_false, or_false]
  split
  · rename_i v hv; simp [hv]
  · rename_i hv
    simp only [Except.error.injEq]
    constructor
    · rintro rfl; exact ⟨fun ⟨v, h⟩ => hv v h, rfl⟩
    · rintro ⟨_, rfl⟩; rfl

theorem getIntelExtension_ok {x : Ext} {cert v : Bytes} : getIntelExtension x cert = .ok v ↔ IntelExtension x cert v := by
  have h := getIntelExtension_checks x cert
  have fwd : ∀ {v}, getIntelExtension x cert = .ok v → IntelExtension x cert v := by
    intro v hv
    obtain ⟨w, l, h1, h2⟩ : ∃ w, IntelExtension x cert w := (h.ok_iff.mp ⟨v, hv⟩) (_, _) (List.mem_cons_of_mem _ (List.mem_singleton.mpr rfl))
    have hf : (l.filter fun e => e.1 = extensionOid) = l.filter (fun e => e.1 == oidIntelExt) := by
      apply List.filter_congr
      intro p _
      by_cases hp : p.1 = extensionOid <;> simp [hp, oidIntelExt_eq]
    unfold getIntelExtension at hv
    rw [h1] at hv
    simp only [okOr, bind, Except.bind, ← hf, h2, List.map_cons, List.map_nil, Except.ok.injEq] at hv
    subst hv
    exact ⟨l, h1, h2⟩
  refine ⟨fwd, fun hv => ?_⟩
  obtain ⟨w, hw⟩ := h.ok_iff.mpr (by
    intro p hp
    simp only [List.mem_cons, List.not_mem_nil, or_false] at hp
    rcases hp with rfl | rfl
    · obtain ⟨l, h1, _⟩ := hv; simp [h1]
    · exact ⟨v, hv⟩)
  rw [hw, intelExtension_unique (fwd hw) hv]

theorem findSub_firstAt {pat : Bytes} (hp : pat ≠ []) {l : Bytes} {n : Nat} : findSub pat l = some n ↔ Der.FirstAt pat l n := by
  rw [findSub_some hp]; rfl

theorem firstAt_unique {pat l : Bytes} {n m : Nat} (h : Der.FirstAt pat l n) (h' : Der.FirstAt pat l m) : n = m := by
  obtain ⟨⟨p, q, h1, h2⟩, h3⟩ := h
  obtain ⟨⟨p', q', h1', h2'⟩, h3'⟩ := h'
  have := h3 _ _ h1'
  have := h3' _ _ h1
  omega

theorem fieldAt_iff {x : Ext} {leaf v : Bytes} (hv : IntelExtension x leaf v) {oid w : Bytes} {off : Nat} :
    FieldAt x leaf oid w off ↔ w = v ∧ Der.FirstAt oid v off := by
  constructor
  · rintro ⟨h1, h2⟩; have := intelExtension_unique h1 hv; subst this; exact ⟨rfl, h2⟩
  · rintro ⟨rfl, h2⟩; exact ⟨hv, h2⟩

/-- Reading a field with a known length. -/
theorem field_checks {x : Ext} {leaf v : Bytes} (hv : IntelExtension x leaf v) {oid : Bytes} (ho : oid ≠ []) {n k : Nat}
    {e1 e2 e3 : SgxError} : Checks (do
      let off ← okOr (findSub oid v) e1
      let data ← okOr (slice? v (off + k) n) e2
      okOr (Arr.ofBytes? n data) e3 : Except SgxError (Arr n))
    [(e1, ∃ w off, FieldAt x leaf oid w off), (e2, ∀ w off, FieldAt x leaf oid w off → off + k + n ≤ w.length)] := by
  refine checks_bind (checks_okOr ?_) fun off hoff => checks_last (checks_okOr ?_) fun data hdata => ?_
  · simp only [fieldAt_iff hv, ← findSub_firstAt ho]
    constructor
    · intro h
      obtain ⟨off, hoff⟩ := Option.ne_none_iff_exists'.mp h
      exact ⟨v, off, rfl, hoff⟩
    · rintro ⟨_, off, _, h⟩; simp [h]
  · rw [okOr_eq_ok, findSub_firstAt ho] at hoff
    simp only [fieldAt_iff hv, ne_eq, slice?_eq_none]
    constructor
    · rintro h _ off' ⟨rfl, h'⟩
      have := firstAt_unique hoff h'; subst this; omega
    · intro h
      have := h v off ⟨rfl, hoff⟩; omega
  · rw [okOr_eq_ok] at hdata
    obtain ⟨hl, rfl⟩ := slice?_eq_some.mp hdata
    exact ⟨⟨_, sub_length hl⟩, by rw [okOr_eq_ok]; simp [Arr.ofBytes?, sub_length hl]⟩

theorem lengthFrom_iff {v : Bytes} {pos len off : Nat} :
    lengthFromRawData v pos = some (len, off) ↔ LengthAt v pos len (off + 1) := by
  unfold lengthFromRawData LengthAt
  cases h0 : v[pos]? with
  | none => simp
  | some m =>
    simp only [Option.bind_eq_bind, Option.bind_some, Option.some.injEq, exists_eq_left']
    split
    · rename_i hm
      cases h1 : v[pos + 1]? with
      | none => simp; omega
      | some h =>
        cases h2 : v[pos + 2]? with
        | none => simp; omega
        | some l =>
          simp only [Option.bind_some, Option.some.injEq, Prod.mk.injEq, exists_eq_left', exists_and_left]
          constructor
          · rintro ⟨rfl, rfl⟩; exact .inr ⟨hm, rfl, by omega⟩
          · rintro (⟨h3, _⟩ | ⟨_, h3, h4⟩)
            · omega
            · exact ⟨h4.symm, by omega⟩
    · rename_i hm
      simp only [Option.some.injEq, Prod.mk.injEq]
      constructor
      · rintro ⟨rfl, rfl⟩; exact .inl ⟨by omega, rfl, rfl⟩
      · rintro (⟨h3, h4, h5⟩ | ⟨h3, _⟩)
        · exact ⟨h4.symm, by omega⟩
        · omega

theorem lengthAt_unique {v : Bytes} {pos len start len' start' : Nat} (h : LengthAt v pos len start)
    (h' : LengthAt v pos len' start') : len = len' ∧ start = start' := by
  obtain ⟨m, h0, h1⟩ := h
  obtain ⟨m', h0', h1'⟩ := h'
  rw [h0] at h0'; cases h0'
  rcases h1 with ⟨h1, h2, h3⟩ | ⟨h1, h2, a, b, h3, h4, h5⟩ <;> rcases h1' with ⟨h1', h2', h3'⟩ | ⟨h1', h2', a', b', h3', h4', h5'⟩
  · omega
  · omega
  · omega
  · rw [h3] at h3'; rw [h4] at h4'; cases h3'; cases h4'; omega

theorem getPcesvn_checks {x : Ext} {leaf v : Bytes} (hv : IntelExtension x leaf v) : Checks (getPcesvn v)
    [(.pceSvnOidIsMissing, ∃ v off, FieldAt x leaf oidPcesvn v off),
     (.pceSvnDecodingError, ∀ v off, FieldAt x leaf oidPcesvn v off → ∃ len start, LengthAt v (off + 12) len start),
     (.pceSvnLengthMismatch, ∀ v off len start, FieldAt x leaf oidPcesvn v off → LengthAt v (off + 12) len start →
        (len = 1 ∨ len = 2) ∧ start + len ≤ v.length)] := by
  have ho : oidPcesvn ≠ [] := by decide
  have hlen : oidPcesvn.length = 11 := rfl
  unfold getPcesvn
  refine checks_bind (checks_okOr ?_) fun off hoff => checks_bind (checks_okOr ?_) fun ⟨len, off'⟩ hlo => ?_
  · simp only [fieldAt_iff hv, ← findSub_firstAt ho]
    constructor
    · intro h
      obtain ⟨off, hoff⟩ := Option.ne_none_iff_exists'.mp h
      exact ⟨v, off, rfl, hoff⟩
    · rintro ⟨_, off, _, h⟩; simp [h]
  · rw [okOr_eq_ok, findSub_firstAt ho] at hoff
    simp only [fieldAt_iff hv, hlen]
    constructor
    · rintro h _ o ⟨rfl, h'⟩
      have := firstAt_unique hoff h'; subst this
      obtain ⟨⟨len, off'⟩, h⟩ := Option.ne_none_iff_exists'.mp h
      exact ⟨len, off' + 1, lengthFrom_iff.mp h⟩
    · intro h
      obtain ⟨len, start, hl⟩ := h v off ⟨rfl, hoff⟩
      have : 1 ≤ start := by
        obtain ⟨m, _, h⟩ := hl
        omega
      have hl' : lengthFromRawData v (off + 12) = some (len, start - 1) :=
        lengthFrom_iff.mpr (by rw [show start - 1 + 1 = start by omega]; exact hl)
      rw [show off + 11 + 1 = off + 12 by omega, hl']; simp
  · rw [okOr_eq_ok, findSub_firstAt ho] at hoff
    rw [okOr_eq_ok, hlen, show off + 11 + 1 = off + 12 by omega, lengthFrom_iff] at hlo
    have hrow : (∀ w o l st, FieldAt x leaf oidPcesvn w o → LengthAt w (o + 12) l st →
        (l = 1 ∨ l = 2) ∧ st + l ≤ w.length) ↔ ((len = 1 ∨ len = 2) ∧ off' + 1 + len ≤ v.length) := by
      constructor
      · intro h; exact h v off len (off' + 1) ((fieldAt_iff hv).mpr ⟨rfl, hoff⟩) hlo
      · intro h w o l st hf hl
        obtain ⟨rfl, hf⟩ := (fieldAt_iff hv).mp hf
        have := firstAt_unique hoff hf; subst this
        obtain ⟨rfl, rfl⟩ := lengthAt_unique hlo hl
        exact h
    rw [show [((SgxError.pceSvnLengthMismatch, ∀ w o l st, FieldAt x leaf oidPcesvn w o → LengthAt w (o + 12) l st →
        (l = 1 ∨ l = 2) ∧ st + l ≤ w.length) : SgxError × Prop)] = [(.pceSvnLengthMismatch, ((len = 1 ∨ len = 2) ∧
          off' + 1 + len ≤ v.length))] by rw [propext hrow]]
    intro e
    by_cases h1 : len = 1 ∨ len = 2
    · have : (len == 1 || len == 2) = true := by simpa using h1
      simp only [this, ensure, if_true, bind, Except.bind, FirstFailing, and_false, or_false, h1, true_and]
      by_cases h2 : off' + 1 + len ≤ v.length
      · have hs : slice? v (off' + 1) len = some (sub v (off' + 1) len) := slice?_eq_some.mpr ⟨h2, rfl⟩
        simp only [hs, okOr, h2, not_true, false_and, iff_false]
        have hl := sub_length h2
        match hm : sub v (off' + 1) len with
        | [] => rw [hm] at hl; simp at hl; omega
        | [a] => simp
        | [a, b] => simp
        | a :: b :: d :: l => rw [hm] at hl; simp at hl; omega
      · have hs : slice? v (off' + 1) len = none := slice?_eq_none.mpr (by omega)
        simp [hs, okOr, h2, eq_comm]
    · have : (len == 1 || len == 2) = false := by simpa using h1
      simp [this, ensure, bind, Except.bind, FirstFailing, h1, eq_comm]

theorem extractTcbInfo_checks (x : Ext) (leaf : Bytes) : Checks (extractTcbInfo x leaf) (needPlatform x leaf) := by
  unfold extractTcbInfo
  refine checks_append (l1 := [_, _]) (getIntelExtension_checks x leaf) fun v hv => ?_
  rw [getIntelExtension_ok] at hv
  refine checks_append (l1 := [_, _]) (field_checks hv (oid := oidFmspc) (by decide)) fun _ _ => ?_
  refine checks_append (l1 := [_, _]) (field_checks hv (oid := oidCpusvn) (by decide)) fun _ _ => ?_
  exact checks_last (getPcesvn_checks hv) fun _ _ => ⟨_, rfl⟩

/-! ### Quotes -/

theorem encodeAsDer_some (d : Bytes) (h : d.length = 64) : ∃ out, encodeAsDer d = .ok out := by
  obtain ⟨out, h1, _⟩ := encodeAsDer_spec d h
  exact ⟨out, h1⟩

/-- The steps that check a certificate chain. -/
theorem chain_checks {x : Ext} {certs : List Bytes} {now : Nat} {f : Bytes → Except SgxError β} {l : List (SgxError × Prop)}
    (h : ∀ leaf rest, certs = leaf :: rest → 1 ≤ rest.length → Checks (f leaf) l) :
    Checks (do
      ensure (decide (certs.length ≥ 2)) SgxError.certificateChainIsTooShort
      let leaf ← okOr certs.head? SgxError.panic
      ensure (x.certParses leaf) SgxError.leafCertificateParsingError
      verifyCertificateChain x leaf certs.tail now
      f leaf) (needChain x certs now ++ l) := by
  refine checks_bind (checks_ensure (by simp)) fun _ h2 => ?_
  match certs, h2, h with
  | [], h2, _ => simp at h2
  | leaf :: rest, h2, h =>
    refine checks_skip (a := leaf) rfl ?_
    refine checks_bind (checks_ensure ?_) fun _ _ => checks_bind (checks_ensure ?_) fun _ _ => h _ _ rfl ?_
    · exact ⟨fun h _ _ e => by cases e; exact h, fun h => h _ _ rfl⟩
    · exact ⟨fun h _ _ e => by cases e; exact h, fun h => h _ _ rfl⟩
    · simp at h2; omega

theorem verifyDcapQuote_checks (x : Ext) (raw : Bytes) (now : Nat) (qe : SgxQuotingEnclave) :
    Checks (verifyDcapQuote x raw now qe) (needQuote x raw now qe) := by
  have hdec : decodeDcapQuote raw ≠ none ↔ 1020 + authSize raw + certSize raw ≤ raw.length ∧ certSize raw ≤ 65000 := by
    constructor
    · intro h
      obtain ⟨⟨q, rest⟩, h⟩ := Option.ne_none_iff_exists'.mp h
      obtain ⟨hq, hl, _⟩ := decodeDcapQuote_iff.mp h
      exact ⟨by omega, hq.certBound⟩
    · rintro ⟨hl, hc⟩
      obtain ⟨q, hq⟩ := quoteAt_exists (raw := raw) (by omega) hc
      rw [decodeDcapQuote_iff.mpr ⟨hq, by omega, rfl⟩]; simp
  unfold verifyDcapQuote needQuote
  simp only [List.append_assoc]
  refine checks_bind (checks_okOr hdec) fun ⟨q, rest⟩ hd => ?_
  rw [okOr_eq_ok] at hd
  obtain ⟨hq, hl, hrest⟩ := decodeDcapQuote_iff.mp hd
  have e : 1014 + authSize raw + 6 = 1020 + authSize raw := by omega
  have hcd : extractCerts x q.certData.data = quoteCerts x raw := by rw [hq.certData, e]; rfl
  refine checks_bind (checks_ensure (by rw [hq.version]; simp)) fun _ _ => ?_
  refine checks_bind (checks_ensure (by rw [hq.keyType]; simp)) fun _ _ => ?_
  refine checks_bind (checks_ensure (by rw [hq.certType]; simp)) fun _ _ => ?_
  refine checks_bind (checks_ensure (reportBody_verify hq.qeReport qe)) fun _ _ => ?_
  dsimp only
  rw [hcd]
  refine chain_checks fun leaf others hcerts hlen => ?_
  have hc : 27 ≤ certSize raw := by
    have := extractCerts_two (x := x) (d := sub raw (1020 + authSize raw) (certSize raw))
      (by unfold quoteCerts at hcerts; rw [hcerts]; simp; omega)
    rwa [sub_length (by omega)] at this
  rw [show (quoteCerts x raw).headD [] = leaf by rw [hcerts]; rfl]
  refine checks_append (extractTcbInfo_checks x leaf) fun ⟨f, t⟩ _ => ?_
  simp only [index, Nat.reduceAdd]
  refine checks_skip (a := sub raw 500 64) (by rw [okOr_eq_ok, slice?_eq_some]; exact ⟨by omega, rfl⟩) ?_
  refine checks_skip (a := sub raw 1014 32) (by rw [okOr_eq_ok, slice?_eq_some]; exact ⟨by omega, rfl⟩) ?_
  refine checks_bind (checks_ensure ?_) fun _ _ => ?_
  · rw [hq.qeReport.reportData, take_sub (by omega), beq_iff_eq]
  refine checks_skip (a := sub raw 564 384) (by rw [okOr_eq_ok, slice?_eq_some]; exact ⟨by omega, rfl⟩) ?_
  refine checks_skip (a := sub raw 0 432) (by rw [okOr_eq_ok, slice?_eq_some]; exact ⟨by omega, rfl⟩) ?_
  refine checks_bind (checks_ensure ?_) fun _ _ => ?_
  · rw [hq.key, hq.isvSig]
  obtain ⟨der, hder⟩ := encodeAsDer_some (sub raw 948 64) (sub_length (by omega))
  rw [hq.qeSig]
  refine checks_skip hder ?_
  refine checks_bind (checks_ensure ?_) fun _ _ => ?_
  · rw [hcerts]
    constructor
    · rintro h _ _ sig ⟨⟩ hs
      rw [hder] at hs; cases hs; exact h
    · intro h; exact h _ _ _ rfl hder
  refine checks_last (checks_ensure ?_) fun _ _ => ⟨_, rfl⟩
  rw [hrest, List.isEmpty_iff, List.drop_eq_nil_iff]
  omega

/-! ### IAS -/

theorem netscapeIn_unique {x : Ext} {der a b d a' b' d' : Bytes} (h : NetscapeIn x der a b d) (h' : NetscapeIn x der a' b' d') :
    a = a' ∧ b = b' ∧ d = d' := by
  have h1 := (netscapeComment_iff (ns := ⟨a, b, d⟩)).mpr h
  have h2 := (netscapeComment_iff (ns := ⟨a', b', d'⟩)).mpr h'
  rw [h1] at h2
  simpa using h2

theorem verifyIasReport_checks (x : Ext) (der : Bytes) : Checks (verifyIasReport x der) (needIas x der) := by
  unfold verifyIasReport parseReport needIas
  refine checks_bind (checks_okOr ?_) fun ns hns => ?_
  · constructor
    · intro h
      obtain ⟨ns, hns⟩ := Option.ne_none_iff_exists'.mp h
      exact ⟨_, _, _, netscapeComment_iff.mp hns⟩
    · rintro ⟨a, b, d, h⟩
      rw [(netscapeComment_iff (ns := ⟨a, b, d⟩)).mpr h]; simp
  rw [okOr_eq_ok, netscapeComment_iff] at hns
  have all : ∀ {P : Bytes → Bytes → Bytes → Prop}, (∀ a b d, NetscapeIn x der a b d → P a b d) ↔
      P ns.attestationRaw ns.sig ns.sigCert := by
    intro P
    constructor
    · intro h; exact h _ _ _ hns
    · intro h a b d hn
      obtain ⟨rfl, rfl, rfl⟩ := netscapeIn_unique hns hn
      exact h
  have rep : ∀ {P : Bytes → Prop}, (∀ a, ReportIn x der a → P a) ↔ P ns.attestationRaw := by
    intro P
    rw [← all (P := fun a _ _ => P a)]
    exact ⟨fun h a b d hn => h a ⟨b, d, hn⟩, fun h a ⟨b, d, hn⟩ => h a b d hn⟩
  refine checks_bind (checks_ensure (all (P := fun _ _ d => x.certParses d = true)).symm) fun _ _ => ?_
  refine checks_bind (checks_ensure (all (P := fun a b d => x.certVerifySig .rsaPkcs1Sha256 d a b = true)).symm) fun _ _ => ?_
  refine checks_bind (checks_ensure (all (P := fun _ _ d => x.iasCertValid d 1573419050 = true)).symm) fun _ _ => ?_
  refine checks_bind (checks_okOr (rep (P := fun a => x.jsonReport a ≠ none)).symm) fun js hjs => ?_
  rw [okOr_eq_ok] at hjs
  have mem : ∀ {P : IasJson → Prop}, Members x der P ↔ P js := by
    intro P
    unfold Members
    rw [show (∀ report j, ReportIn x der report → x.jsonReport report = some j → P j) ↔
      ∀ report, ReportIn x der report → ∀ j, x.jsonReport report = some j → P j from
        ⟨fun h a b j c => h a j b c, fun h a j b c => h a b j c⟩,
      rep (P := fun a => ∀ j, x.jsonReport a = some j → P j), hjs]
    exact ⟨fun h => h _ rfl, fun h j hj => by cases hj; exact h⟩
  refine checks_bind (checks_okOr (mem (P := fun js => js.timestamp ≠ none)).symm) fun ts hts => ?_
  rw [okOr_eq_ok] at hts
  have hrow : Members x der (fun js => ∀ ts, js.timestamp = some ts → ∃ secs, x.parseTime (ts ++ "+0000") = some secs ∧ 0 ≤ secs) ↔
      ∃ secs, x.parseTime (ts ++ "+0000") = some secs ∧ 0 ≤ secs := by
    rw [mem, hts]
    exact ⟨fun h => h _ rfl, fun h _ e => by cases e; exact h⟩
  have rest : ∀ t : Nat, Checks (do
      let status ← okOr js.quoteStatus SgxError.quoteStatusMissing
      let body ← okOr js.quoteBody SgxError.quoteBodyMissing
      let quoteRaw ← okOr (x.base64 body.toUTF8.data.toList) SgxError.quoteBodyDecodingError
      let (quote, _) ← okOr (decodeSgxQuote quoteRaw) SgxError.quoteBodyIsInvalid
      .ok ({ mrEnclave := quote.mrEnclave, mrSigner := quote.mrSigner, status := iasStatus status,
             reportData := quote.reportData, timestamp := t, buildMode := quote.buildMode } : SgxVerifiedReport))
      [(SgxError.quoteStatusMissing, Members x der fun js => js.quoteStatus ≠ none),
       (.quoteBodyMissing, Members x der fun js => js.quoteBody ≠ none),
       (.quoteBodyDecodingError, Members x der fun js => ∀ b, js.quoteBody = some b → x.base64 b.toUTF8.data.toList ≠ none),
       (.quoteBodyIsInvalid, Members x der fun js => ∀ b quote, js.quoteBody = some b →
          x.base64 b.toUTF8.data.toList = some quote → 432 ≤ quote.length)] := by
    intro t
    refine checks_bind (checks_okOr (mem (P := fun js => js.quoteStatus ≠ none)).symm) fun st hst =>
      checks_bind (checks_okOr (mem (P := fun js => js.quoteBody ≠ none)).symm) fun b hb => ?_
    rw [okOr_eq_ok] at hb
    refine checks_bind (checks_okOr ?_) fun q hq => checks_last (checks_okOr ?_) fun _ _ => ⟨_, rfl⟩
    · rw [mem, hb]
      exact ⟨fun h _ e => by cases e; exact h, fun h => h _ rfl⟩
    · rw [okOr_eq_ok] at hq
      rw [mem, hb]
      constructor
      · rintro h _ q' ⟨⟩ hq'
        rw [hq] at hq'; cases hq'
        obtain ⟨⟨r, b⟩, h⟩ := Option.ne_none_iff_exists'.mp h
        exact (decodeSgxQuote_iff.mp h).1
      · intro h
        have hl := h _ _ rfl hq
        obtain ⟨r, hr⟩ := reportAt_exists (raw := q) (off := 48) hl
        rw [decodeSgxQuote_iff.mpr ⟨hl, hr, rfl⟩]; simp
  cases hp : x.parseTime (ts ++ "+0000") with
  | none =>
    intro e
    simp only [okOr, bind, Except.bind, Except.error.injEq]
    simp only [FirstFailing, hrow, hp]
    simp [eq_comm]
  | some secs =>
    refine checks_skip rfl ?_
    by_cases h0 : 0 ≤ secs
    · have hm : millisToU64 (secs * 1000) = some (secs * 1000).toNat := by
        rw [millisToU64_some]; omega
      rw [hm]
      have h1 := checks_bind (m := okOr (some (secs * 1000).toNat) SgxError.timestampIsInvalid)
        (p := (.timestampIsInvalid, Members x der (fun js => ∀ ts, js.timestamp = some ts →
          ∃ secs, x.parseTime (ts ++ "+0000") = some secs ∧ 0 ≤ secs)))
        (checks_okOr (by rw [hrow, hp]; simpa using h0)) (fun t _ => rest t)
      exact h1
    · have hm : millisToU64 (secs * 1000) = none := by
        unfold millisToU64; rw [if_neg (by omega)]
      rw [hm]
      intro e
      simp only [okOr, bind, Except.bind, Except.error.injEq]
      simp only [FirstFailing, hrow, hp]
      simp [h0, eq_comm]

end Verif
