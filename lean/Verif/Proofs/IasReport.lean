import Verif.Proofs.Verify
import Verif.Spec.Teerex

/-!
# TCB levels and IAS reports
-/

namespace Verif

/-! ### TCB levels -/

theorem svnLoop_iff : ∀ (l r : Bytes) (h : l.length = r.length),
    svnLoop l r = true ↔ ∀ i (hi : i < l.length), l[i] ≤ r[i]'(h ▸ hi)
  | [], [], _ => by simp [svnLoop]
  | v :: vs, w :: ws, h => by
    have h' : vs.length = ws.length := by simpa using h
    simp only [svnLoop]
    split
    · rename_i hv
      simp only [Bool.false_eq_true, false_iff]
      intro hall
      have := hall 0 (by simp)
      simp only [List.getElem_cons_zero] at this
      exact absurd hv (UInt8.not_lt.mpr this)
    · rename_i hv
      rw [svnLoop_iff vs ws h']
      constructor
      · intro hall i hi
        cases i with
        | zero => simpa using UInt8.not_lt.mp hv
        | succ i => simpa using hall i (by simpa using hi)
      · intro hall i hi
        have := hall (i + 1) (by simpa using hi)
        simpa only [List.getElem_cons_succ] using this
  | [], _ :: _, h => by simp at h
  | _ :: _, [], h => by simp at h

theorem verifyExaminee_iff (l p : TcbVersionStatus) : l.verifyExaminee p = true ↔ Dominated l p := by
  unfold TcbVersionStatus.verifyExaminee Dominated
  rw [Bool.and_eq_true, svnLoop_iff _ _ (by rw [l.cpusvn.property, p.cpusvn.property]), decide_eq_true_eq]
  constructor
  · rintro ⟨h1, h2⟩; exact ⟨fun i hi => h1 i (by rw [l.cpusvn.property]; exact hi), h2⟩
  · rintro ⟨h1, h2⟩; exact ⟨fun i hi => h1 i (by rw [l.cpusvn.property] at hi; exact hi), h2⟩

instance (l p : TcbVersionStatus) : Decidable (Dominated l p) := decidable_of_iff _ (verifyExaminee_iff l p)

theorem statusTable_iff (t : TcbStatus) (s : SgxStatus) : (t, s) ∈ statusTable ↔ s = SgxStatus.ofTcb t := by
  cases t <;> cases s <;> decide

theorem tcbLoop_some {l : List TcbVersionStatus} {p : TcbVersionStatus} {st : SgxStatus} :
    tcbLoop l p = some st ↔ ∃ before level after, l = before ++ level :: after ∧ Dominated level p ∧
      (∀ x ∈ before, ¬ Dominated x p) ∧ (level.tcbStatus, st) ∈ statusTable := by
  induction l with
  | nil => simp [tcbLoop]
  | cons a l ih =>
    simp only [tcbLoop]
    split
    · rename_i h
      rw [verifyExaminee_iff] at h
      constructor
      · intro hs
        exact ⟨[], a, l, rfl, h, by simp, by rw [statusTable_iff]; simpa using hs.symm⟩
      · rintro ⟨before, level, after, hl, hd, hb, hs⟩
        cases before with
        | nil =>
          simp only [List.nil_append, List.cons.injEq] at hl
          obtain ⟨rfl, rfl⟩ := hl
          rw [statusTable_iff] at hs; rw [hs]
        | cons b bs =>
          simp only [List.cons_append, List.cons.injEq] at hl
          obtain ⟨rfl, _⟩ := hl
          exact absurd h (hb _ (by simp))
    · rename_i h
      rw [verifyExaminee_iff] at h
      rw [ih]
      constructor
      · rintro ⟨before, level, after, rfl, hd, hb, hs⟩
        refine ⟨a :: before, level, after, rfl, hd, ?_, hs⟩
        intro x hx
        rcases List.mem_cons.mp hx with rfl | hx
        · exact h
        · exact hb x hx
      · rintro ⟨before, level, after, hl, hd, hb, hs⟩
        cases before with
        | nil =>
          simp only [List.nil_append, List.cons.injEq] at hl
          obtain ⟨rfl, rfl⟩ := hl
          exact absurd hd h
        | cons b bs =>
          simp only [List.cons_append, List.cons.injEq] at hl
          obtain ⟨rfl, rfl⟩ := hl
          exact ⟨bs, level, after, rfl, hd, fun x hx => hb x (by simp [hx]), hs⟩

theorem firstDominated_iff {i : SgxTcbInfoOnChain} {p : TcbVersionStatus} {st : SgxStatus} :
    i.verifyExaminee p = some st ↔ FirstDominated i p st := tcbLoop_some

theorem tcbLoop_none {l : List TcbVersionStatus} {p : TcbVersionStatus} :
    tcbLoop l p = none ↔ ∀ x ∈ l, ¬ Dominated x p := by
  induction l with
  | nil => simp [tcbLoop]
  | cons a l ih =>
    simp only [tcbLoop]
    split
    · rename_i h; rw [verifyExaminee_iff] at h; simp [h]
    · rename_i h; rw [verifyExaminee_iff] at h; simp [h, ih]

/-! ### Finding a pattern -/

theorem findSub_some {pat : Bytes} (hp : pat ≠ []) {l : Bytes} {n : Nat} :
    findSub pat l = some n ↔ (∃ pre post, l = pre ++ pat ++ post ∧ pre.length = n) ∧
      ∀ p q, l = p ++ pat ++ q → n ≤ p.length := by
  induction l generalizing n with
  | nil =>
    have h0 : pat.isPrefixOf [] = false := by cases pat <;> simp_all
    simp only [findSub, h0, Bool.false_eq_true, if_false, reduceCtorEq, false_iff]
    rintro ⟨⟨pre, post, h, _⟩, _⟩
    simp_all
  | cons b bs ih =>
    simp only [findSub]
    split
    · rename_i h
      obtain ⟨q, hq⟩ := List.isPrefixOf_iff_prefix.mp h
      constructor
      · intro hn
        simp only [Option.some.injEq] at hn
        subst hn
        exact ⟨⟨[], q, by simp [hq], rfl⟩, by simp⟩
      · rintro ⟨_, hmin⟩
        have := hmin [] q (by simp [hq])
        simp at this
        simp [this]
    · rename_i h
      have hnp : ∀ p q, b :: bs = p ++ pat ++ q → ∃ p', p = b :: p' ∧ bs = p' ++ pat ++ q := by
        intro p q hpq
        cases p with
        | nil =>
          exfalso; apply h
          exact List.isPrefixOf_iff_prefix.mpr ⟨q, by simpa using hpq.symm⟩
        | cons p0 p' =>
          simp only [List.cons_append, List.cons.injEq] at hpq
          exact ⟨p', by rw [hpq.1], hpq.2⟩
      cases n with
      | zero =>
        simp only [Option.map_eq_some_iff, Nat.add_eq_zero_iff, Nat.succ_ne_self, and_false, exists_false, false_iff]
        rintro ⟨⟨pre, post, hl, hlen⟩, _⟩
        obtain ⟨p', rfl, _⟩ := hnp _ _ hl
        simp at hlen
      | succ n =>
        simp only [Option.map_eq_some_iff, Nat.add_right_cancel_iff, exists_eq_right, ih]
        constructor
        · rintro ⟨⟨pre, post, rfl, hlen⟩, hmin⟩
          refine ⟨⟨b :: pre, post, by simp, by simp [hlen]⟩, ?_⟩
          intro p q hpq
          obtain ⟨p', rfl, hbs⟩ := hnp _ _ hpq
          simpa using hmin p' q hbs
        · rintro ⟨⟨pre, post, hl, hlen⟩, hmin⟩
          obtain ⟨p', rfl, hbs⟩ := hnp _ _ hl
          refine ⟨⟨p', post, hbs, by simpa using hlen⟩, ?_⟩
          intro p q hpq
          have := hmin (b :: p) q (by simp [hpq])
          simpa using this

theorem findSub_none {pat : Bytes} (hp : pat ≠ []) {l : Bytes} :
    findSub pat l = none ↔ ∀ p q, l ≠ p ++ pat ++ q := by
  induction l with
  | nil =>
    have h0 : pat.isPrefixOf [] = false := by cases pat <;> simp_all
    simp only [findSub, h0, Bool.false_eq_true, if_false, true_iff]
    intro p q h
    simp_all
  | cons b bs ih =>
    simp only [findSub]
    split
    · rename_i h
      obtain ⟨q, hq⟩ := List.isPrefixOf_iff_prefix.mp h
      simp only [reduceCtorEq, false_iff]
      intro hall
      exact hall [] q (by simp [hq])
    · rename_i h
      simp only [Option.map_eq_none_iff, ih]
      constructor
      · intro hall p q hpq
        cases p with
        | nil => exact h (List.isPrefixOf_iff_prefix.mpr ⟨q, by simpa using hpq.symm⟩)
        | cons p0 p' =>
          simp only [List.cons_append, List.cons.injEq] at hpq
          exact hall p' q hpq.2
      · intro hall p q hpq
        exact hall (b :: p) q (by simp [hpq])

/-! ### Splitting at a byte -/

theorem splitByte_ne_nil (s : UInt8) (l : Bytes) : splitByte s l ≠ [] := by
  cases l with
  | nil => simp [splitByte]
  | cons b bs =>
    simp only [splitByte]
    split
    · simp
    · split <;> simp

theorem splitByte_cons {s : UInt8} {l a : Bytes} {rest : List Bytes} (hr : rest ≠ []) :
    splitByte s l = a :: rest ↔ ∃ t, l = a ++ s :: t ∧ s ∉ a ∧ splitByte s t = rest := by
  induction l generalizing a with
  | nil =>
    simp only [splitByte, List.cons.injEq]
    constructor
    · rintro ⟨_, h⟩; exact absurd h.symm hr
    · rintro ⟨t, h, _⟩; simp at h
  | cons b bs ih =>
    simp only [splitByte]
    split
    · rename_i h
      subst h
      simp only [List.cons.injEq]
      constructor
      · rintro ⟨rfl, h⟩; exact ⟨bs, by simp, by simp, h⟩
      · rintro ⟨t, h, hn, ht⟩
        cases a with
        | nil => simp only [List.nil_append, List.cons.injEq, true_and] at h; subst h; exact ⟨rfl, ht⟩
        | cons x a => simp only [List.cons_append, List.cons.injEq] at h; simp [h.1] at hn
    · rename_i h
      match hp : splitByte s bs with
      | [] => exact absurd hp (splitByte_ne_nil _ _)
      | p :: ps =>
        simp only [List.cons.injEq]
        constructor
        · rintro ⟨rfl, rfl⟩
          obtain ⟨t, rfl, hn, ht⟩ := ih.mp hp
          refine ⟨t, by simp, ?_, ht⟩
          simp only [List.mem_cons, not_or]
          exact ⟨fun e => h e.symm, hn⟩
        · rintro ⟨t, hl, hn, ht⟩
          cases a with
          | nil => simp only [List.nil_append, List.cons.injEq] at hl; exact absurd hl.1 h
          | cons x a =>
            simp only [List.cons_append, List.cons.injEq] at hl
            obtain ⟨rfl, hl⟩ := hl
            have := ih.mpr ⟨t, hl, fun hm => hn (by simp [hm]), ht⟩
            rw [hp] at this
            simp only [List.cons.injEq] at this
            exact ⟨by rw [this.1], this.2⟩

theorem splitByte_single {s : UInt8} {l a : Bytes} : splitByte s l = [a] ↔ l = a ∧ s ∉ a := by
  induction l generalizing a with
  | nil => simp only [splitByte, List.cons.injEq, and_true]; constructor
           · rintro rfl; simp
           · rintro ⟨rfl, _⟩; rfl
  | cons b bs ih =>
    simp only [splitByte]
    split
    · rename_i h
      subst h
      simp only [List.cons.injEq]
      constructor
      · rintro ⟨_, h⟩; exact absurd h (splitByte_ne_nil _ _)
      · rintro ⟨rfl, hn⟩; simp at hn
    · rename_i h
      match hp : splitByte s bs with
      | [] => exact absurd hp (splitByte_ne_nil _ _)
      | p :: ps =>
        simp only [List.cons.injEq]
        constructor
        · rintro ⟨rfl, rfl⟩
          obtain ⟨rfl, hn⟩ := ih.mp hp
          refine ⟨rfl, ?_⟩
          simp only [List.mem_cons, not_or]
          exact ⟨fun e => h e.symm, hn⟩
        · rintro ⟨rfl, hn⟩
          have := ih.mpr ⟨rfl, fun hm => hn (by simp [hm])⟩
          rw [hp] at this
          simp only [List.cons.injEq] at this
          exact ⟨by rw [this.1], this.2⟩

theorem splitByte_three {s : UInt8} {l a b d : Bytes} :
    splitByte s l = [a, b, d] ↔ l = a ++ [s] ++ b ++ [s] ++ d ∧ s ∉ a ∧ s ∉ b ∧ s ∉ d := by
  rw [splitByte_cons (by simp)]
  constructor
  · rintro ⟨t, rfl, ha, ht⟩
    obtain ⟨u, rfl, hb, hu⟩ := (splitByte_cons (by simp)).mp ht
    obtain ⟨rfl, hd⟩ := splitByte_single.mp hu
    exact ⟨by simp, ha, hb, hd⟩
  · rintro ⟨rfl, ha, hb, hd⟩
    refine ⟨b ++ s :: d, by simp, ha, ?_⟩
    rw [splitByte_cons (by simp)]
    exact ⟨d, rfl, hb, splitByte_single.mpr ⟨rfl, hd⟩⟩

/-! ### The Netscape comment -/

theorem getElem?_after (pre mid rest : Bytes) (k : Nat) :
    (pre ++ mid ++ rest)[pre.length + mid.length + k]? = rest[k]? := by
  rw [← List.length_append, List.getElem?_append_right (by omega)]
  simp

theorem slice?_after (pre mid rest : Bytes) (k n : Nat) :
    slice? (pre ++ mid ++ rest) (pre.length + mid.length + k) n = slice? rest k n := by
  unfold slice?
  have : (pre ++ mid ++ rest).drop (pre.length + mid.length + k) = rest.drop k := by
    rw [← List.length_append, List.drop_append]
    simp
  rw [this]
  simp only [List.length_append]
  by_cases h : k + n ≤ rest.length
  · rw [if_pos (by omega), if_pos h]
  · rw [if_neg (by omega), if_neg h]

theorem slice?_mid {l r : Bytes} {k n : Nat} (hk : k ≤ l.length) :
    slice? l k n = some r ↔ ∃ post, l = l.take k ++ r ++ post ∧ r.length = n := by
  rw [slice?_eq_some]
  constructor
  · rintro ⟨h, rfl⟩
    refine ⟨l.drop (k + n), ?_, sub_length h⟩
    unfold sub
    rw [List.append_assoc, ← List.drop_drop, List.take_append_drop, List.take_append_drop]
  · rintro ⟨post, hl, rfl⟩
    have hlen := congrArg List.length hl
    simp only [List.length_append, List.length_take, Nat.min_eq_left hk] at hlen
    refine ⟨by omega, ?_⟩
    have hk' : (l.take k).length = k := by simp [hk]
    unfold sub
    conv => rhs; rw [hl]
    rw [List.append_assoc, List.drop_left' hk', List.take_left' rfl]

theorem nsCmtOid_length : nsCmtOid.length = 11 := rfl

/-- The content behind a length field. -/
theorem lengthFrom_content {rest content : Bytes} :
    (∃ n off, lengthFromRawData rest 1 = some (n, off) ∧ slice? rest (off + 1) n = some content) ↔
    ∃ tag lenBytes post, rest = [tag] ++ lenBytes ++ content ++ post ∧
      ((∃ l : UInt8, lenBytes = [l] ∧ l.toNat ≤ 0x80 ∧ content.length = l.toNat) ∨
       (∃ m h l : UInt8, lenBytes = [m, h, l] ∧ 0x80 < m.toNat ∧
          content.length = h.toNat * 256 + l.toNat)) := by
  constructor
  · rintro ⟨n, off, h, hs⟩
    match rest with
    | [] => simp [lengthFromRawData] at h
    | [_] => simp [lengthFromRawData] at h
    | tag :: l0 :: r =>
      simp only [lengthFromRawData, List.getElem?_cons_succ, List.getElem?_cons_zero, Option.bind_eq_bind,
        Option.bind_some] at h
      split at h
      · rename_i hm
        match r with
        | [] => simp at h
        | [_] => simp at h
        | l1 :: l2 :: r =>
          simp only [List.getElem?_cons_succ, List.getElem?_cons_zero, Option.bind_some,
            Option.some.injEq, Prod.mk.injEq] at h
          obtain ⟨rfl, rfl⟩ := h
          obtain ⟨post, hl, hlen⟩ := (slice?_mid (by simp)).mp hs
          exact ⟨tag, [l0, l1, l2], post, by simpa using hl, .inr ⟨l0, l1, l2, rfl, hm, hlen⟩⟩
      · rename_i hm
        simp only [Option.some.injEq, Prod.mk.injEq] at h
        obtain ⟨rfl, rfl⟩ := h
        obtain ⟨post, hl, hlen⟩ := (slice?_mid (by simp)).mp hs
        exact ⟨tag, [l0], post, by simpa using hl, .inl ⟨l0, rfl, by omega, hlen⟩⟩
  · rintro ⟨tag, _, post, rfl, (⟨l, rfl, hl, hlen⟩ | ⟨m, h, l, rfl, hm, hlen⟩)⟩
    · refine ⟨l.toNat, 1, ?_, ?_⟩
      · have : ¬ l.toNat > 128 := by omega
        simp [lengthFromRawData, this]
      · rw [slice?_mid (by simp)]
        exact ⟨post, by simp, hlen⟩
    · refine ⟨h.toNat * 256 + l.toNat, 3, ?_, ?_⟩
      · simp [lengthFromRawData, hm]
      · rw [slice?_mid (by simp)]
        exact ⟨post, by simp, hlen⟩

theorem lengthFrom_after (pre mid rest : Bytes) (k : Nat) :
    lengthFromRawData (pre ++ mid ++ rest) (pre.length + mid.length + k) =
      (lengthFromRawData rest k).map fun p => (p.1, pre.length + mid.length + p.2) := by
  unfold lengthFromRawData
  rw [getElem?_after, Nat.add_assoc _ k 1, getElem?_after, Nat.add_assoc _ k 2, getElem?_after]
  cases rest[k]? with
  | none => rfl
  | some l0 =>
    simp only [Option.bind_eq_bind, Option.bind_some]
    split
    · cases rest[k + 1]? with
      | none => rfl
      | some l1 =>
        cases rest[k + 2]? with
        | none => rfl
        | some l2 => simp
    · simp

theorem netscapeComment_iff {x : Ext} {der : Bytes} {ns : NetscapeComment} :
    netscapeComment x der = some ns ↔ NetscapeIn x der ns.attestationRaw ns.sig ns.sigCert := by
  have hne : nsCmtOid ≠ [] := by decide
  have hsplit : ∀ raw : Bytes, (match splitByte 0x7C raw with
      | [a, b, c] => do
        let sig ← x.base64 b
        let sigCert ← x.base64 c
        some { attestationRaw := a, sig := sig, sigCert := sigCert }
      | _ => none) = some ns ↔ ∃ b d, splitByte 0x7C raw = [ns.attestationRaw, b, d] ∧
        x.base64 b = some ns.sig ∧ x.base64 d = some ns.sigCert := by
    intro raw
    constructor
    · intro h
      split at h
      · rename_i a b d heq
        simp only [Option.bind_eq_bind, Option.bind_eq_some_iff, Option.some.injEq] at h
        obtain ⟨sg, h1, ct, h2, rfl⟩ := h
        exact ⟨b, d, heq, h1, h2⟩
      · simp at h
    · rintro ⟨b, d, heq, h1, h2⟩
      rw [heq]
      simp [h1, h2]
  unfold netscapeComment
  simp only [Option.bind_eq_bind, Option.bind_eq_some_iff, Prod.exists]
  constructor
  · rintro ⟨off, hoff, len, off', hlen, content, hc, h⟩
    obtain ⟨⟨pre, rest, rfl, rfl⟩, hmin⟩ := (findSub_some hne).mp hoff
    obtain ⟨b, d, hsp, h1, h2⟩ := (hsplit content).mp h
    obtain ⟨rfl, n1, n2, n3⟩ := splitByte_three.mp hsp
    have e : pre.length + 12 = pre.length + nsCmtOid.length + 1 := by rw [nsCmtOid_length]
    rw [e, lengthFrom_after, Option.map_eq_some_iff] at hlen
    obtain ⟨⟨n, o⟩, hl, he⟩ := hlen
    simp only [Prod.mk.injEq] at he
    obtain ⟨rfl, rfl⟩ := he
    rw [Nat.add_assoc, slice?_after] at hc
    obtain ⟨tag, lb, post, rfl, hlb⟩ := lengthFrom_content.mp ⟨_, _, hl, hc⟩
    refine ⟨pre, post, b, d, tag, lb, by simp, hmin, hlb, n1, n2, n3, h1, h2⟩
  · rintro ⟨pre, post, b, d, tag, lb, hder, hmin, hlb, n1, n2, n3, h1, h2⟩
    have hder' : der = pre ++ nsCmtOid ++
        ([tag] ++ lb ++ (ns.attestationRaw ++ [0x7C] ++ b ++ [0x7C] ++ d) ++ post) := by
      rw [hder]; simp
    refine ⟨pre.length, (findSub_some hne).mpr ⟨⟨pre, _, hder', rfl⟩, hmin⟩, ?_⟩
    obtain ⟨n, off, hl, hs⟩ := lengthFrom_content.mpr ⟨tag, lb, post, rfl, hlb⟩
    have e : pre.length + 12 = pre.length + nsCmtOid.length + 1 := by rw [nsCmtOid_length]
    refine ⟨n, pre.length + nsCmtOid.length + off, ?_, _, ?_, (hsplit _).mpr ⟨b, d, splitByte_three.mpr ⟨rfl, n1, n2, n3⟩, h1, h2⟩⟩
    · rw [hder', e, lengthFrom_after, hl]; rfl
    · rw [hder', Nat.add_assoc, slice?_after, hs]

theorem millisToU64_some {t : Int} {n : Nat} : millisToU64 t = some n ↔ (n : Int) = t := by
  unfold millisToU64
  split
  · simp only [Option.some.injEq]; omega
  · simp only [reduceCtorEq, false_iff]; omega

theorem verifyIasReport_ok {x : Ext} {der : Bytes} {r : SgxVerifiedReport} :
    verifyIasReport x der = .ok r ↔ AuthenticIas x der r := by
  unfold verifyIasReport verifySignature verifyServerCert parseReport
  simp only [bind_eq_ok, okOr_eq_ok, ensure_eq_ok, exists_const, netscapeComment_iff, Prod.exists,
    Except.ok.injEq, decodeSgxQuote_iff, millisToU64_some, iasCertCheckTime]
  constructor
  · rintro ⟨ns, hns, hp, hs, hv, js, hjs, ts, hts, secs, hsecs, t, ht, st, hst, body, hbody, q, hq, rb, b,
      ⟨hl, hrb, rfl⟩, rfl⟩
    refine ⟨ns.attestationRaw, ns.sig, ns.sigCert, js, ts, secs, st, body, q, hns, hp, hs, hv, hjs, hts, hsecs,
      ht, hst, rfl, hbody, hq, hl, hrb.mrEnclave, hrb.mrSigner, hrb.reportData, ?_⟩
    rw [buildMode_debug, hrb.attrFlags]
  · rintro ⟨raw, sg, ct, js, ts, secs, st, body, q, hns, hp, hs, hv, hjs, hts, hsecs,
      ht, hst, hst', hbody, hq, hl, h1, h2, h3, h4⟩
    obtain ⟨rb, hrb⟩ := reportAt_exists (raw := q) (off := 48) hl
    refine ⟨⟨raw, sg, ct⟩, hns, hp, hs, hv, js, hjs, ts, hts, secs, hsecs, _, ht, st, hst, body, hbody, q, hq, rb, _,
      ⟨hl, hrb, rfl⟩, ?_⟩
    have hb : rb.buildMode = r.buildMode := by
      have h5 := buildMode_debug rb
      rw [hrb.attrFlags, ← h4] at h5
      cases hx : rb.buildMode <;> cases hy : r.buildMode <;> simp_all
    have e1 : rb.mrEnclave = r.mrEnclave := Subtype.ext (hrb.mrEnclave.trans h1.symm)
    have e2 : rb.mrSigner = r.mrSigner := Subtype.ext (hrb.mrSigner.trans h2.symm)
    have e3 : rb.reportData = r.reportData := Subtype.ext (hrb.reportData.trans h3.symm)
    rw [hb, e1, e2, e3, ← hst']

end Verif
