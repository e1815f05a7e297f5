import Verif.Proofs.Hex

/-!
# Reading JSON trees
-/

namespace Verif

/-! ### Lists -/

theorem mapM_map_some {α β : Type} (f : β → Option α) (g : α → β) (l : List α) (h : ∀ a ∈ l, f (g a) = some a) :
    (l.map g).mapM f = some l := by
  induction l with
  | nil => rfl
  | cons a l ih =>
    rw [List.map_cons, List.mapM_cons, h a (by simp), ih fun b hb => h b (by simp [hb])]
    rfl

theorem mapM_some_iff {α β : Type} (f : α → Option β) (l : List α) (r : List β) :
    l.mapM f = some r ↔ l.map f = r.map some := by
  induction l generalizing r with
  | nil => cases r <;> simp
  | cons a l ih =>
    rw [List.mapM_cons]
    simp only [Option.bind_eq_bind, Option.bind_eq_some_iff, List.map_cons]
    constructor
    · rintro ⟨b, hb, q, hq, h⟩
      cases h
      rw [List.map_cons, hb, (ih q).mp hq]
    · intro h
      cases r with
      | nil => simp at h
      | cons b r =>
        simp only [List.map_cons, List.cons.injEq] at h
        exact ⟨b, h.1, r, (ih r).mpr h.2, rfl⟩

theorem mapM_congr' {α β : Type} (f : α → Option β) (l l' : List α) (hl : l.length = l'.length)
    (h : ∀ (k : Nat) (a b : α), l[k]? = some a → l'[k]? = some b → f a = f b) : l.mapM f = l'.mapM f := by
  induction l generalizing l' with
  | nil => cases l' with
    | nil => rfl
    | cons => simp at hl
  | cons a l ih =>
    cases l' with
    | nil => simp at hl
    | cons b l' =>
      rw [List.mapM_cons, List.mapM_cons, h 0 a b rfl rfl,
        ih l' (by simpa using hl) fun k a b ha hb => h (k + 1) a b (by simpa using ha) (by simpa using hb)]

/-! ### Same contents -/

/-- Values of a field that are both absent or have the same contents. -/
inductive OptSame (N : List String) : Option Json → Option Json → Prop where
  | none : OptSame N none none
  | some {a b : Json} : SameContents N a b → OptSame N (some a) (some b)

/-- Pairwise. -/
inductive OptsSame (N : List String) : List (Option Json) → List (Option Json) → Prop where
  | nil : OptsSame N [] []
  | cons {a b : Option Json} {l l' : List (Option Json)} : OptSame N a b → OptsSame N l l' →
      OptsSame N (a :: l) (b :: l')

/-- The function does not distinguish values with the same contents. -/
def Respects {α : Type} (N : List String) (f : Json → Option α) : Prop := ∀ j j', SameContents N j j' → f j = f j'

theorem member_eq (l : List (String × Json)) (name : String) :
    Json.member l name = match named l name with | [] => some none | [j] => some (some j) | _ => none := by
  have h : named l name = (l.filter (fun m => m.1 == name)).map (·.2) := by
    unfold named
    congr 1
  rw [h]
  unfold Json.member
  generalize l.filter (fun m => m.1 == name) = q
  match q with
  | [] => rfl
  | [_] => rfl
  | _ :: _ :: _ => rfl

theorem OptsSame.refl (N : List String) (l : List (Option Json)) : OptsSame N l l := by
  induction l with
  | nil => exact .nil
  | cons a l ih => exact .cons (by cases a <;> constructor; exact .refl _) ih

theorem member_same {N : List String} {l l' : List (String × Json)} {n : String} (hn : n ∈ N)
    (hl : ∀ n ∈ N, (named l n).length = (named l' n).length)
    (h : ∀ n ∈ N, ∀ (k : Nat) (a b : Json), (named l n)[k]? = some a → (named l' n)[k]? = some b → SameContents N a b) :
    (Json.member l n = none ∧ Json.member l' n = none) ∨
      ∃ a b, Json.member l n = some a ∧ Json.member l' n = some b ∧ OptSame N a b := by
  rw [member_eq, member_eq]
  have h1 := hl n hn
  have h2 := h n hn
  generalize named l n = q at *
  generalize named l' n = q' at *
  match q, q', h1 with
  | [], [], _ => exact .inr ⟨_, _, rfl, rfl, .none⟩
  | [a], [b], _ => exact .inr ⟨_, _, rfl, rfl, .some (h2 0 a b rfl rfl)⟩
  | _ :: _ :: _, _ :: _ :: _, _ => exact .inl ⟨rfl, rfl⟩

theorem fields_same {N names : List String} {j j' : Json} (h : SameContents N j j') (hn : ∀ n ∈ names, n ∈ N) :
    (j.fields names = none ∧ j'.fields names = none) ∨
      ∃ r r', j.fields names = some r ∧ j'.fields names = some r' ∧ OptsSame N r r' := by
  cases h with
  | refl =>
    cases hj : j.fields names with
    | none => exact .inl ⟨rfl, rfl⟩
    | some r => exact .inr ⟨r, r, rfl, rfl, .refl _ _⟩
  | arr l l' hl h =>
    simp only [Json.fields]
    rw [hl]
    split
    · right
      refine ⟨_, _, rfl, rfl, ?_⟩
      rename_i hlen
      clear hlen hn
      induction l generalizing l' with
      | nil => cases l' with
        | nil => exact .nil
        | cons => simp at hl
      | cons a l ih =>
        cases l' with
        | nil => simp at hl
        | cons b l' =>
          exact .cons (.some (h 0 a b rfl rfl))
            (ih l' (by simpa using hl) fun k a b ha hb => h (k + 1) a b (by simpa using ha) (by simpa using hb))
    · exact .inl ⟨rfl, rfl⟩
  | obj l l' _ hl h =>
    simp only [Json.fields]
    induction names with
    | nil => exact .inr ⟨[], [], rfl, rfl, .nil⟩
    | cons n names ih =>
      rw [List.mapM_cons, List.mapM_cons]
      rcases member_same (hn n (by simp)) hl h with ⟨h1, h2⟩ | ⟨a, b, h1, h2, h3⟩
      · left; rw [h1, h2]; exact ⟨rfl, rfl⟩
      · rw [h1, h2]
        rcases ih fun m hm => hn m (by simp [hm]) with ⟨h4, h5⟩ | ⟨r, r', h4, h5, h6⟩
        · left; rw [h4, h5]; exact ⟨rfl, rfl⟩
        · right; rw [h4, h5]; exact ⟨_, _, rfl, rfl, .cons h3 h6⟩

theorem bind_fields {α : Type} {N names : List String} {j j' : Json} {g : List (Option Json) → Option α}
    (h : SameContents N j j') (hn : ∀ n ∈ names, n ∈ N) (hg : ∀ r r', OptsSame N r r' → g r = g r') :
    (j.fields names >>= g) = (j'.fields names >>= g) := by
  rcases fields_same h hn with ⟨h1, h2⟩ | ⟨r, r', h1, h2, h3⟩
  · rw [h1, h2]
  · rw [h1, h2]; exact hg r r' h3

theorem req_same {α : Type} {N : List String} {f : Json → Option α} (hf : Respects N f) {a b : Option Json}
    (h : OptSame N a b) : Json.req f a = Json.req f b := by
  cases h with
  | none => rfl
  | some h => exact hf _ _ h

theorem opt_same {α : Type} {N : List String} {f : Json → Option α} (hf : Respects N f) {a b : Option Json}
    (h : OptSame N a b) : Json.opt f a = Json.opt f b := by
  cases h with
  | none => rfl
  | some h =>
    cases h with
    | refl => rfl
    | arr l l' hl h => simp only [Json.opt]; rw [hf _ _ (.arr l l' hl h)]
    | obj l l' hk hl h => simp only [Json.opt]; rw [hf _ _ (.obj l l' hk hl h)]

theorem vec_same {α : Type} {N : List String} {f : Json → Option α} (hf : Respects N f) : Respects N (Json.vec f) := by
  intro j j' h
  cases h with
  | refl => rfl
  | arr l l' hl h =>
    exact mapM_congr' f l l' hl fun k a b ha hb => hf _ _ (h k a b ha hb)
  | obj => rfl

theorem array_same {α : Type} {N : List String} {n : Nat} {f : Json → Option α} (hf : Respects N f) :
    Respects N (Json.array n f) := by
  intro j j' h
  cases h with
  | refl => rfl
  | arr l l' hl h =>
    simp only [Json.array]
    rw [mapM_congr' f l l' hl fun k a b ha hb => hf _ _ (h k a b ha hb)]
  | obj => rfl

theorem uint_same (N : List String) (m : Nat) : Respects N (Json.uint m) := by
  intro j j' h; cases h <;> rfl
theorem string_same (N : List String) : Respects N Json.string := by
  intro j j' h; cases h <;> rfl
theorem date_same (N : List String) (d : String → Option Int) : Respects N (dateField d) := by
  intro j j' h; cases h <;> rfl
theorem hex_same (N : List String) (n : Nat) : Respects N (hexField n) := by
  intro j j' h; cases h <;> rfl

theorem ofName_collateralMembers : ∀ n ∈ collateralMembers, TcbStatus.ofName n = none := by decide +kernel

theorem named_singleton (s n : String) (v : Json) : named [(s, v)] n = if s = n then [v] else [] := by
  unfold named
  rw [List.filter_cons]
  by_cases h : s = n <;> simp [h]

theorem status_obj {l : List (String × Json)} (h : ∃ n ∈ collateralMembers, named l n ≠ []) :
    TcbStatus.ofJson (.obj l) = none := by
  obtain ⟨n, hn, hne⟩ := h
  match l with
  | [] => rfl
  | [(s, v)] =>
    rw [named_singleton] at hne
    by_cases hs : s = n
    · subst hs
      cases v with
      | null => exact ofName_collateralMembers _ hn
      | _ => rfl
    · simp [hs] at hne
  | (_, v) :: _ :: _ => cases v <;> rfl

theorem status_same : Respects collateralMembers TcbStatus.ofJson := by
  intro j j' h
  cases h with
  | refl => rfl
  | arr => rfl
  | obj l l' hk hl h =>
    rw [status_obj hk, status_obj]
    obtain ⟨n, hn, hne⟩ := hk
    refine ⟨n, hn, fun he => hne ?_⟩
    have := hl n hn
    rw [he] at this
    exact List.length_eq_zero_iff.mp this

theorem qeTcb_same : Respects collateralMembers qeTcbOfJson := by
  intro j j' h
  unfold qeTcbOfJson
  refine bind_fields h (by decide +kernel) fun r r' hr => ?_
  cases hr with
  | nil => rfl
  | cons ha hr =>
  cases hr with
  | cons => rfl
  | nil =>
  exact req_same (uint_same _ _) ha

theorem qeLevel_same (d : String → Option Int) : Respects collateralMembers (QeTcbLevel.ofJson d) := by
  intro j j' h
  unfold QeTcbLevel.ofJson
  refine bind_fields h (by decide +kernel) fun r r' hr => ?_
  cases hr with
  | nil => rfl
  | cons ha hr =>
  cases hr with
  | nil => rfl
  | cons hb hr =>
  cases hr with
  | nil => rfl
  | cons hc hr =>
  cases hr with
  | nil => rfl
  | cons hd hr =>
  cases hr with
  | cons => rfl
  | nil =>
  simp only [req_same qeTcb_same ha, req_same (date_same _ _) hb, req_same status_same hc,
    opt_same (vec_same (string_same _)) hd]

theorem identity_same (dt : String → Option Int) : Respects collateralMembers (EnclaveIdentity.ofJson dt) := by
  intro j j' hj
  unfold EnclaveIdentity.ofJson
  refine bind_fields hj (by decide +kernel) fun r r' hr => ?_
  cases hr with
  | nil => rfl
  | cons ha hr =>
  cases hr with
  | nil => rfl
  | cons hb hr =>
  cases hr with
  | nil => rfl
  | cons hc hr =>
  cases hr with
  | nil => rfl
  | cons hd hr =>
  cases hr with
  | nil => rfl
  | cons he hr =>
  cases hr with
  | nil => rfl
  | cons hf hr =>
  cases hr with
  | nil => rfl
  | cons hg hr =>
  cases hr with
  | nil => rfl
  | cons hh hr =>
  cases hr with
  | nil => rfl
  | cons hi hr =>
  cases hr with
  | nil => rfl
  | cons hk hr =>
  cases hr with
  | nil => rfl
  | cons hl hr =>
  cases hr with
  | nil => rfl
  | cons hm hr =>
  cases hr with
  | cons => rfl
  | nil =>
  simp only [req_same (string_same _) ha, req_same (uint_same _ _) hb, req_same (date_same _ _) hc,
    req_same (date_same _ _) hd, req_same (uint_same _ _) he, req_same (hex_same _ _) hf, req_same (hex_same _ _) hg,
    req_same (hex_same _ _) hh, req_same (hex_same _ _) hi, req_same (hex_same _ _) hk, req_same (uint_same _ _) hl,
    req_same (vec_same (qeLevel_same dt)) hm]

theorem component_same : Respects collateralMembers TcbComponent.ofJson := by
  intro j j' h
  unfold TcbComponent.ofJson
  refine bind_fields h (by decide +kernel) fun r r' hr => ?_
  cases hr with
  | nil => rfl
  | cons ha hr =>
  cases hr with
  | nil => rfl
  | cons hb hr =>
  cases hr with
  | nil => rfl
  | cons hc hr =>
  cases hr with
  | cons => rfl
  | nil =>
  simp only [req_same (uint_same _ _) ha, opt_same (string_same _) hb, opt_same (string_same _) hc]

theorem tcbFull_same : Respects collateralMembers tcbFullOfJson := by
  intro j j' h
  unfold tcbFullOfJson
  refine bind_fields h (by decide +kernel) fun r r' hr => ?_
  cases hr with
  | nil => rfl
  | cons ha hr =>
  cases hr with
  | nil => rfl
  | cons hb hr =>
  cases hr with
  | cons => rfl
  | nil =>
  simp only [req_same (array_same component_same) ha, req_same (uint_same _ _) hb]

theorem levelFull_same (d : String → Option Int) : Respects collateralMembers (TcbLevelFull.ofJson d) := by
  intro j j' h
  unfold TcbLevelFull.ofJson
  refine bind_fields h (by decide +kernel) fun r r' hr => ?_
  cases hr with
  | nil => rfl
  | cons ha hr =>
  cases hr with
  | nil => rfl
  | cons hb hr =>
  cases hr with
  | nil => rfl
  | cons hc hr =>
  cases hr with
  | nil => rfl
  | cons hd hr =>
  cases hr with
  | cons => rfl
  | nil =>
  simp only [req_same tcbFull_same ha, req_same (date_same _ _) hb, req_same status_same hc,
    opt_same (vec_same (string_same _)) hd]

theorem tcbInfo_same (dt : String → Option Int) : Respects collateralMembers (TcbInfo.ofJson dt) := by
  intro j j' hj
  unfold TcbInfo.ofJson
  refine bind_fields hj (by decide +kernel) fun r r' hr => ?_
  cases hr with
  | nil => rfl
  | cons ha hr =>
  cases hr with
  | nil => rfl
  | cons hb hr =>
  cases hr with
  | nil => rfl
  | cons hc hr =>
  cases hr with
  | nil => rfl
  | cons hd hr =>
  cases hr with
  | nil => rfl
  | cons he hr =>
  cases hr with
  | nil => rfl
  | cons hf hr =>
  cases hr with
  | nil => rfl
  | cons hg hr =>
  cases hr with
  | nil => rfl
  | cons hh hr =>
  cases hr with
  | nil => rfl
  | cons hi hr =>
  cases hr with
  | cons => rfl
  | nil =>
  simp only [req_same (string_same _) ha, req_same (uint_same _ _) hb, req_same (date_same _ _) hc,
    req_same (date_same _ _) hd, req_same (hex_same _ _) he, req_same (string_same _) hf, req_same (uint_same _ _) hg,
    req_same (uint_same _ _) hh, req_same (vec_same (levelFull_same dt)) hi]

/-! ### What is used of documents -/

/-- What is used of a TCB info. -/
def TcbInfo.used (i : TcbInfo) : String × Nat × Int × Int × Fmspc × List (List UInt8 × Nat × TcbStatus) :=
  (i.id, i.version, i.issueDate, i.nextUpdate, i.fmspc,
    i.tcbLevels.map fun l => (l.components.val.map TcbComponent.svn, l.pcesvn, l.tcbStatus))

/-- What is used of an identity. -/
def EnclaveIdentity.used (i : EnclaveIdentity) : String × Nat × Int × Int × Option SgxQuotingEnclave :=
  (i.id, i.version, i.issueDate, i.nextUpdate, i.toQuotingEnclave)

/-- An entry made of what is used of a level. -/
def TcbVersionStatus.ofUsed (p : List UInt8 × Nat × TcbStatus) : Option TcbVersionStatus :=
  if h : p.1.length = 16 then some { cpusvn := ⟨p.1, h⟩, pcesvn := p.2.1, tcbStatus := p.2.2 } else none

theorem entries_of_used (l : List TcbLevelFull) :
    (l.map fun l => (l.components.val.map TcbComponent.svn, l.pcesvn, l.tcbStatus)).map TcbVersionStatus.ofUsed =
      (l.map fun l => ({ cpusvn := l.svns, pcesvn := l.pcesvn, tcbStatus := l.tcbStatus } : TcbVersionStatus)).map some := by
  rw [List.map_map, List.map_map]
  refine List.map_congr_left fun l _ => ?_
  have h : (l.components.val.map TcbComponent.svn).length = 16 := by rw [List.length_map]; exact l.components.property
  show TcbVersionStatus.ofUsed (_, _, _) = some _
  unfold TcbVersionStatus.ofUsed
  rw [dif_pos h]
  rfl

theorem tcbInfo_used {i i' : TcbInfo} (h : i.used = i'.used) : (∀ t, i.isValid t = i'.isValid t) ∧ i.toChain = i'.toChain := by
  simp only [TcbInfo.used, Prod.mk.injEq] at h
  obtain ⟨h1, h2, h3, h4, h5, h6⟩ := h
  have h7 := congrArg (List.map TcbVersionStatus.ofUsed) h6
  rw [entries_of_used, entries_of_used] at h7
  have h8 := (List.map_inj_right (fun _ _ h => Option.some.inj h)).mp h7
  exact ⟨fun t => by simp only [TcbInfo.isValid, h1, h2, h3, h4], by simp only [TcbInfo.toChain, h3, h4, h5, h8]⟩

theorem identity_used {i i' : EnclaveIdentity} (h : i.used = i'.used) :
    (∀ t, i.isValid t = i'.isValid t) ∧ i.toQuotingEnclave = i'.toQuotingEnclave := by
  simp only [EnclaveIdentity.used, Prod.mk.injEq] at h
  obtain ⟨h1, h2, h3, h4, h5⟩ := h
  exact ⟨fun t => by simp only [EnclaveIdentity.isValid, h1, h2, h3, h4], h5⟩

end Verif
