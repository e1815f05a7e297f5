import Verif.Spec.Escapes
import Verif.Proofs.Json

/-!
# Reading documents whose strings are written with escape sequences
-/

namespace Verif

theorem plainAll_eq (l : List Json) : Json.plainAll l = l.map Json.plain := by
  induction l with
  | nil => rfl
  | cons a l ih => rw [Json.plainAll, ih]; rfl

theorem plainMembers_eq (l : List (String × Json)) : Json.plainMembers l = l.map fun m => (m.1, m.2.plain) := by
  induction l with
  | nil => rfl
  | cons a l ih => cases a; rw [Json.plainMembers, ih]; rfl

/-- The function does not distinguish how letters are written. -/
def Blind {α : Type} (f : Json → Option α) : Prop := ∀ j, f j.plain = f j

theorem member_map (g : String → Json → Json) (l : List (String × Json)) (n : String) :
    Json.member (l.map fun m => (m.1, g m.1 m.2)) n = (Json.member l n).map (Option.map (g n)) := by
  unfold Json.member
  have h : (l.map fun m => (m.1, g m.1 m.2)).filter (fun m => m.1 == n) =
      (l.filter fun m => m.1 == n).map fun m => (m.1, g m.1 m.2) := by
    rw [List.filter_map]; rfl
  rw [h]
  have hn : ∀ m ∈ l.filter (fun m => m.1 == n), m.1 = n := fun m hm => by simpa using (List.mem_filter.mp hm).2
  generalize l.filter (fun m => m.1 == n) = q at hn ⊢
  match q, hn with
  | [], _ => rfl
  | [m], hn => simp [hn m (by simp)]
  | _ :: _ :: _, _ => rfl

theorem mapM_map_option {α β : Type} (names : List α) (f f' : α → Option β) (g : α → β → β)
    (h : ∀ n, f' n = (f n).map (g n)) :
    names.mapM f' = (names.mapM f).map fun r => List.zipWith g names r := by
  induction names with
  | nil => rfl
  | cons a names ih =>
    rw [List.mapM_cons, List.mapM_cons, h, ih]
    cases f a with
    | none => rfl
    | some b => cases names.mapM f <;> rfl

theorem zipWith_map {α β : Type} (g : β → β) (names : List α) (r : List β) (h : r.length = names.length) :
    List.zipWith (fun _ => g) names r = r.map g := by
  induction names generalizing r with
  | nil => cases r with
    | nil => rfl
    | cons => simp at h
  | cons a names ih =>
    cases r with
    | nil => simp at h
    | cons b r => simp only [List.zipWith_cons_cons, List.map_cons]; rw [ih r (by simpa using h)]

theorem mapM_length {α β : Type} (f : α → Option β) (l : List α) (r : List β) (h : l.mapM f = some r) :
    r.length = l.length := by
  have := congrArg List.length ((mapM_some_iff f l r).mp h)
  simpa using this.symm

theorem fields_plain (names : List String) (j : Json) :
    j.plain.fields names = (j.fields names).map (List.map (Option.map Json.plain)) := by
  cases j with
  | arr l =>
    simp only [Json.plain, Json.fields, plainAll_eq, List.length_map]
    split
    · simp
    · rfl
  | obj l =>
    simp only [Json.plain, Json.fields, plainMembers_eq]
    rw [mapM_map_option names (Json.member l) _ (fun _ => Option.map Json.plain) fun n => member_map (fun _ => Json.plain) l n]
    cases h : names.mapM (Json.member l) with
    | none => rfl
    | some r => simp only [Option.map_some]; rw [zipWith_map _ _ _ (mapM_length _ _ _ h)]
  | _ => rfl

theorem blind_fields {α : Type} {names : List String} {j : Json} {g : List (Option Json) → Option α}
    (hg : ∀ r, g (r.map (Option.map Json.plain)) = g r) : (j.plain.fields names >>= g) = (j.fields names >>= g) := by
  rw [fields_plain]
  cases j.fields names with
  | none => rfl
  | some r => exact hg r

theorem req_blind {α : Type} {f : Json → Option α} (hf : Blind f) (o : Option Json) :
    Json.req f (o.map Json.plain) = Json.req f o := by
  cases o with
  | none => rfl
  | some j => exact hf j

theorem opt_blind {α : Type} {f : Json → Option α} (hf : Blind f) (o : Option Json) :
    Json.opt f (o.map Json.plain) = Json.opt f o := by
  cases o with
  | none => rfl
  | some j =>
    have := hf j
    cases j <;> simp only [Option.map_some, Json.plain, Json.opt] at * <;> simp only [this]

theorem mapM_blind {α : Type} {f : Json → Option α} (hf : Blind f) (l : List Json) :
    (l.map Json.plain).mapM f = l.mapM f := by
  induction l with
  | nil => rfl
  | cons a l ih => rw [List.map_cons, List.mapM_cons, List.mapM_cons, hf a, ih]

theorem vec_blind {α : Type} {f : Json → Option α} (hf : Blind f) : Blind (Json.vec f) := by
  intro j
  cases j with
  | arr l => simp only [Json.plain, plainAll_eq, Json.vec, mapM_blind hf]
  | _ => rfl

theorem array_blind {α : Type} {n : Nat} {f : Json → Option α} (hf : Blind f) : Blind (Json.array n f) := by
  intro j
  cases j with
  | arr l => simp only [Json.plain, plainAll_eq, Json.array, mapM_blind hf]
  | _ => rfl

theorem uint_blind (m : Nat) : Blind (Json.uint m) := by intro j; cases j <;> rfl
theorem string_blind : Blind Json.string := by intro j; cases j <;> rfl
theorem date_blind (d : String → Option Int) : Blind (dateField d) := by intro j; cases j <;> rfl

theorem status_blind : Blind TcbStatus.ofJson := by
  intro j
  cases j with
  | obj l =>
    match l with
    | [] => rfl
    | [(_, v)] => cases v <;> rfl
    | (_, v) :: (_, w) :: _ => cases v <;> rfl
  | _ => rfl

theorem qeTcb_blind : Blind qeTcbOfJson := by
  intro j
  unfold qeTcbOfJson
  refine blind_fields fun r => ?_
  match r with
  | [] => rfl
  | [a] => exact req_blind (uint_blind _) a
  | _ :: _ :: _ => rfl

theorem qeLevel_blind (d : String → Option Int) : Blind (QeTcbLevel.ofJson d) := by
  intro j
  unfold QeTcbLevel.ofJson
  refine blind_fields fun r => ?_
  match r with
  | [] | [_] | [_, _] | [_, _, _] => rfl
  | [a, b, c, e] =>
    simp only [List.map_cons, List.map_nil, req_blind qeTcb_blind, req_blind (date_blind d), req_blind status_blind,
      opt_blind (vec_blind string_blind)]
  | _ :: _ :: _ :: _ :: _ :: _ => rfl

theorem component_blind : Blind TcbComponent.ofJson := by
  intro j
  unfold TcbComponent.ofJson
  refine blind_fields fun r => ?_
  match r with
  | [] | [_] | [_, _] => rfl
  | [a, b, c] => simp only [List.map_cons, List.map_nil, req_blind (uint_blind _), opt_blind string_blind]
  | _ :: _ :: _ :: _ :: _ => rfl

theorem tcbFull_blind : Blind tcbFullOfJson := by
  intro j
  unfold tcbFullOfJson
  refine blind_fields fun r => ?_
  match r with
  | [] | [_] => rfl
  | [a, b] => simp only [List.map_cons, List.map_nil, req_blind (uint_blind _), req_blind (array_blind component_blind)]
  | _ :: _ :: _ :: _ => rfl

theorem levelFull_blind (d : String → Option Int) : Blind (TcbLevelFull.ofJson d) := by
  intro j
  unfold TcbLevelFull.ofJson
  refine blind_fields fun r => ?_
  match r with
  | [] | [_] | [_, _] | [_, _, _] => rfl
  | [a, b, c, e] =>
    simp only [List.map_cons, List.map_nil, req_blind tcbFull_blind, req_blind (date_blind d), req_blind status_blind,
      opt_blind (vec_blind string_blind)]
  | _ :: _ :: _ :: _ :: _ :: _ => rfl

/-- The value of a member as it is in the unescaped document. -/
def unescapeMember (n : String) (j : Json) : Json := if n ∈ hexMembers then j else j.plain

theorem fields_unescaped (names : List String) (l : List (String × Json)) :
    (Json.obj (unescaped l)).fields names = ((Json.obj l).fields names).map
      fun r => List.zipWith (fun n => Option.map (unescapeMember n)) names r := by
  simp only [Json.fields]
  exact mapM_map_option names (Json.member l) _ (fun n => Option.map (unescapeMember n)) fun n => member_map unescapeMember l n

theorem member_hex {n : String} (h : n ∈ hexMembers) (o : Option Json) : o.map (unescapeMember n) = o := by
  have : unescapeMember n = id := by funext j; exact if_pos h
  rw [this]; simp

theorem member_other {n : String} (h : n ∉ hexMembers) : unescapeMember n = Json.plain := by
  funext j; exact if_neg h

theorem tcbInfo_unescaped (dt : String → Option Int) (l : List (String × Json)) :
    TcbInfo.ofJson dt (.obj (unescaped l)) = TcbInfo.ofJson dt (.obj l) := by
  unfold TcbInfo.ofJson
  rw [fields_unescaped]
  cases h : (Json.obj l).fields ["id", "version", "issueDate", "nextUpdate", "fmspc", "pceId", "tcbType",
      "tcbEvaluationDataNumber", "tcbLevels"] with
  | none => rfl
  | some r =>
    have hl := mapM_length _ _ _ h
    match r, hl with
    | [a, b, c, d, e, f, g, h, i], _ =>
      simp only [Option.map_some, List.zipWith_cons_cons, List.zipWith_nil_left, Option.bind_eq_bind, Option.bind_some,
        member_hex (n := "fmspc") (by decide +kernel), member_other (n := "id") (by decide +kernel),
        member_other (n := "version") (by decide +kernel), member_other (n := "issueDate") (by decide +kernel),
        member_other (n := "nextUpdate") (by decide +kernel), member_other (n := "pceId") (by decide +kernel),
        member_other (n := "tcbType") (by decide +kernel), member_other (n := "tcbEvaluationDataNumber") (by decide +kernel),
        member_other (n := "tcbLevels") (by decide +kernel), req_blind (uint_blind _), req_blind string_blind,
        req_blind (date_blind dt), req_blind (vec_blind (levelFull_blind dt))]

theorem identity_unescaped (dt : String → Option Int) (l : List (String × Json)) :
    EnclaveIdentity.ofJson dt (.obj (unescaped l)) = EnclaveIdentity.ofJson dt (.obj l) := by
  unfold EnclaveIdentity.ofJson
  rw [fields_unescaped]
  cases h : (Json.obj l).fields ["id", "version", "issueDate", "nextUpdate", "tcbEvaluationDataNumber", "miscselect",
      "miscselectMask", "attributes", "attributesMask", "mrsigner", "isvprodid", "tcbLevels"] with
  | none => rfl
  | some r =>
    have hl := mapM_length _ _ _ h
    match r, hl with
    | [a, b, c, d, e, f, g, h, i, k, l, m], _ =>
      simp only [Option.map_some, List.zipWith_cons_cons, List.zipWith_nil_left, Option.bind_eq_bind, Option.bind_some,
        member_hex (n := "miscselect") (by decide +kernel), member_hex (n := "miscselectMask") (by decide +kernel),
        member_hex (n := "attributes") (by decide +kernel), member_hex (n := "attributesMask") (by decide +kernel),
        member_hex (n := "mrsigner") (by decide +kernel), member_other (n := "id") (by decide +kernel),
        member_other (n := "version") (by decide +kernel), member_other (n := "issueDate") (by decide +kernel),
        member_other (n := "nextUpdate") (by decide +kernel), member_other (n := "isvprodid") (by decide +kernel),
        member_other (n := "tcbEvaluationDataNumber") (by decide +kernel),
        member_other (n := "tcbLevels") (by decide +kernel), req_blind (uint_blind _), req_blind string_blind,
        req_blind (date_blind dt), req_blind (vec_blind (qeLevel_blind dt))]

/-! ### Optional members -/

variable {drop : String → Json → Bool}

theorem withoutAll_eq (l : List Json) : Json.withoutAll drop l = l.map (Json.without drop) := by
  induction l with
  | nil => rfl
  | cons a l ih => rw [Json.withoutAll, ih]; rfl

theorem withoutMembers_eq (l : List (String × Json)) :
    Json.withoutMembers drop l = l.map fun m => (m.1, m.2.without drop) := by
  induction l with
  | nil => rfl
  | cons a l ih => cases a; rw [Json.withoutMembers, ih]; rfl

/-- A field after certain values have been taken out. -/
def cleaned (drop : String → Json → Bool) (b : Bool) (n : String) (o : Option Json) : Option Json :=
  match o with
  | some j => if b && optionalMembers.contains n && drop n j then none else some j
  | none => none

theorem member_dropMembers (l : List (String × Json)) (n : String) :
    Json.member (dropMembers drop l) n = (Json.member l n).map (cleaned drop (isLevelPart l) n) := by
  unfold dropMembers
  cases hb : isLevelPart l with
  | false =>
    rw [if_neg (by simp)]
    have : cleaned drop false n = id := by funext o; cases o <;> simp [cleaned]
    rw [this]; simp
  | true =>
    rw [if_pos rfl]
    unfold Json.member
    rw [List.filter_filter]
    have h : (l.filter fun m => m.1 == n && !(optionalMembers.contains m.1 && drop m.1 m.2 &&
          (l.filter fun x => x.1 == m.1).length == 1)) =
        (l.filter fun m => m.1 == n).filter fun m => !(optionalMembers.contains n && drop n m.2 &&
          (l.filter fun x => x.1 == n).length == 1) := by
      rw [List.filter_filter]
      refine congrArg (List.filter · l) (funext fun m => ?_)
      by_cases hm : m.1 = n
      · subst hm; simp
      · rw [beq_eq_false_iff_ne.mpr hm]; simp
    rw [h]
    generalize l.filter (fun m => m.1 == n) = q
    match q with
    | [] => rfl
    | [m] =>
      simp only [List.filter_cons, List.filter_nil, List.length_singleton, BEq.rfl, Bool.and_true, Option.map_some, cleaned,
        Bool.true_and]
      cases optionalMembers.contains n && drop n m.2 <;> rfl
    | a :: b :: q =>
      have : (a :: b :: q).filter (fun m => !(optionalMembers.contains n && drop n m.2 &&
          (a :: b :: q).length == 1)) = a :: b :: q := List.filter_eq_self.mpr fun m _ => by simp
      rw [this]; rfl

/-- A field of a document without certain values. -/
def cleanedField (drop : String → Json → Bool) (b : Bool) (n : String) (o : Option Json) : Option Json :=
  cleaned drop b n (o.map (Json.without drop))

theorem fields_without (names : List String) (j : Json) :
    ∃ b, (j.without drop).fields names = (j.fields names).map fun r => List.zipWith (cleanedField drop b) names r := by
  cases j with
  | arr l =>
    refine ⟨false, ?_⟩
    simp only [Json.without, Json.fields, withoutAll_eq, List.length_map]
    split
    · rename_i h
      have hc : cleanedField drop false = fun _ => Option.map (Json.without drop) := by
        funext n o; cases o <;> simp [cleanedField, cleaned]
      simp only [Option.map_some]
      rw [hc, zipWith_map _ _ _ (by simpa using h)]
      simp
    · rfl
  | obj l =>
    refine ⟨isLevelPart (Json.withoutMembers drop l), ?_⟩
    simp only [Json.without, Json.fields]
    refine mapM_map_option names (Json.member l) _ _ fun n => ?_
    rw [member_dropMembers, withoutMembers_eq, member_map (fun _ => (Json.without drop)) l n, Option.map_map]
    rfl
  | _ => exact ⟨false, rfl⟩

/-- Only values that the optional member can have are dropped. -/
def DropsOptional (drop : String → Json → Bool) : Prop := ∀ n v, n ∈ optionalMembers → drop n v = true → optionalValue n v = true

/-- Up to `e`, the function reads a document like the one without the optional members. -/
def ReadsAlike {α β : Type} (drop : String → Json → Bool) (e : α → β) (f : Json → Option α) : Prop :=
  ∀ j, (f (j.without drop)).map e = (f j).map e

theorem fields_length {names : List String} {j : Json} {r : List (Option Json)} (h : j.fields names = some r) :
    r.length = names.length := by
  cases j with
  | arr l =>
    simp only [Json.fields] at h
    split at h
    · cases h; simpa
    · cases h
  | obj l => exact mapM_length _ _ _ h
  | _ => cases h

theorem alike_fields {α β : Type} {e : α → β} {names : List String} {j : Json} {g : List (Option Json) → Option α}
    (hg : ∀ b r, r.length = names.length → (g (List.zipWith (cleanedField drop b) names r)).map e = (g r).map e) :
    ((j.without drop).fields names >>= g).map e = (j.fields names >>= g).map e := by
  obtain ⟨b, hb⟩ := fields_without (drop := drop) names j
  rw [hb]
  cases h : j.fields names with
  | none => rfl
  | some r => exact hg b r (fields_length h)

theorem alike_id {α : Type} {f : Json → Option α} (hf : ReadsAlike drop id f) (j : Json) : f (j.without drop) = f j := by
  simpa using hf j

theorem req_alike {α β : Type} {e : α → β} {f : Json → Option α} (hf : ReadsAlike drop e f) {n : String}
    (hn : n ∉ optionalMembers) (b : Bool) (o : Option Json) :
    (Json.req f (cleanedField drop b n o)).map e = (Json.req f o).map e := by
  cases o with
  | none => rfl
  | some j =>
    have : optionalMembers.contains n = false := by simpa using hn
    simp only [cleanedField, Option.map_some, cleaned, this, Bool.and_false, Bool.false_and]
    exact hf j

theorem req_same_value {α : Type} {f : Json → Option α} (hf : ReadsAlike drop id f) {n : String}
    (hn : n ∉ optionalMembers) (b : Bool) (o : Option Json) : Json.req f (cleanedField drop b n o) = Json.req f o := by
  simpa using req_alike hf hn b o

theorem opt_alike {α : Type} {f : Json → Option α} (hf : ReadsAlike drop id f) {n : String}
    (hv : ∀ v, n ∈ optionalMembers → drop n v = true → v = .null ∨ (f v).isSome = true) (b : Bool) (o : Option Json) :
    (Json.opt f (cleanedField drop b n o)).isSome = (Json.opt f o).isSome := by
  cases o with
  | none => rfl
  | some j =>
    have hj := alike_id hf j
    simp only [cleanedField, Option.map_some, cleaned]
    split
    · rename_i hb
      simp only [Bool.and_eq_true, List.contains_iff_mem] at hb
      rcases hv _ hb.1.2 hb.2 with h | h
      · cases j with
        | null => rfl
        | _ => simp [Json.without] at h
      · rw [hj] at h
        cases j with
        | null => rfl
        | _ => simp only [Json.opt, Option.isSome_map, h, Option.isSome_some]
    · cases j with
      | null => rfl
      | _ =>
        simp only [Json.without] at hj ⊢
        try simp only [Json.opt, Option.isSome_map, hj]

theorem mapM_alike {α β : Type} {e : α → β} {f : Json → Option α} (hf : ReadsAlike drop e f) (l : List Json) :
    ((l.map (Json.without drop)).mapM f).map (List.map e) = (l.mapM f).map (List.map e) := by
  induction l with
  | nil => rfl
  | cons a l ih =>
    rw [List.map_cons, List.mapM_cons, List.mapM_cons]
    have h := hf a
    generalize f (a.without drop) = x at *
    generalize f a = y at *
    generalize (l.map (Json.without drop)).mapM f = x' at *
    generalize l.mapM f = y' at *
    cases x <;> cases y <;> simp at h
    · rfl
    · cases x' <;> cases y' <;> simp at ih
      · rfl
      · simp [h, ih]

theorem vec_alike {α β : Type} {e : α → β} {f : Json → Option α} (hf : ReadsAlike drop e f) :
    ReadsAlike drop (List.map e) (Json.vec f) := by
  intro j
  cases j with
  | arr l => simp only [Json.without, withoutAll_eq, Json.vec, mapM_alike hf]
  | _ => rfl

theorem array_alike {α β : Type} {e : α → β} {n : Nat} {f : Json → Option α} (hf : ReadsAlike drop e f) :
    ReadsAlike drop (fun r : { l : List α // l.length = n } => r.val.map e) (Json.array n f) := by
  intro j
  cases j with
  | arr l =>
    have h := mapM_alike hf l
    simp only [Json.without, withoutAll_eq, Json.array]
    generalize (l.map (Json.without drop)).mapM f = x' at *
    generalize l.mapM f = y' at *
    cases x' <;> cases y' <;> simp at h
    · rfl
    · rename_i x y
      have hl : x.length = y.length := by simpa using congrArg List.length h
      simp only [Option.bind_some]
      by_cases hn : y.length = n
      · rw [dif_pos (hl.trans hn), dif_pos hn]; simp [h]
      · rw [dif_neg (fun he => hn (hl.symm.trans he)), dif_neg hn]
  | _ => rfl

theorem uint_alike (m : Nat) : ReadsAlike drop id (Json.uint m) := by intro j; cases j <;> rfl
theorem string_alike : ReadsAlike drop id Json.string := by intro j; cases j <;> rfl
theorem date_alike (d : String → Option Int) : ReadsAlike drop id (dateField d) := by intro j; cases j <;> rfl
theorem hex_alike (n : Nat) : ReadsAlike drop id (hexField n) := by intro j; cases j <;> rfl

theorem strings_alike : ReadsAlike drop id (Json.vec Json.string) := by
  have h := vec_alike (drop := drop) string_alike
  intro j
  simpa using h j

theorem status_levelPart {l : List (String × Json)} (h : isLevelPart l = true) : TcbStatus.ofJson (.obj l) = none := by
  simp only [isLevelPart, List.any_eq_true, Bool.or_eq_true, beq_iff_eq] at h
  obtain ⟨m, hm, h⟩ := h
  refine status_obj ⟨m.1, ?_, fun he => ?_⟩
  · rcases h with h | h <;> rw [h] <;> decide +kernel
  · have : m.2 ∈ named l m.1 := List.mem_map.mpr ⟨m, List.mem_filter.mpr ⟨hm, by simp⟩, rfl⟩
    rw [he] at this
    cases this

theorem dropMembers_levelPart {l : List (String × Json)} (h : isLevelPart l = true) : isLevelPart (dropMembers drop l) = true := by
  unfold dropMembers
  rw [if_pos h]
  simp only [isLevelPart, List.any_eq_true, Bool.or_eq_true, beq_iff_eq] at h ⊢
  obtain ⟨m, hm, h⟩ := h
  refine ⟨m, List.mem_filter.mpr ⟨hm, ?_⟩, h⟩
  have : optionalMembers.contains m.1 = false := by rcases h with h | h <;> rw [h] <;> decide +kernel
  show (!(optionalMembers.contains m.1 && _ && _)) = true
  rw [this]
  rfl

theorem status_alike : ReadsAlike drop id TcbStatus.ofJson := by
  intro j
  cases j with
  | obj l =>
    simp only [Json.without]
    have hp : isLevelPart (Json.withoutMembers drop l) = isLevelPart l := by
      rw [withoutMembers_eq]; simp [isLevelPart, List.any_map, Function.comp_def]
    cases h : isLevelPart l with
    | true => rw [status_levelPart h, status_levelPart (dropMembers_levelPart (hp.trans h))]
    | false =>
      unfold dropMembers
      rw [if_neg (by rw [hp, h]; simp), withoutMembers_eq]
      match l with
      | [] => rfl
      | [(_, v)] => cases v <;> rfl
      | (_, v) :: (_, w) :: _ => cases v <;> rfl
  | _ => rfl

theorem optional_strings (hd : DropsOptional drop) (v : Json) (hn : "advisoryIDs" ∈ optionalMembers) (h : drop "advisoryIDs" v = true) :
    v = .null ∨ (Json.vec Json.string v).isSome = true := by
  have h' := hd _ v hn h
  simp only [optionalValue, Bool.and_eq_true] at h'
  cases v with
  | null => exact .inl rfl
  | arr l =>
    right
    have h2 := h'.2
    simp only [BEq.rfl, Bool.true_and, List.all_eq_true] at h2
    simp only [Json.vec]
    clear h' h
    induction l with
    | nil => rfl
    | cons a l ih =>
      have h3 := h2 a (by simp)
      have h4 := ih fun i hi => h2 i (by simp [hi])
      obtain ⟨r, hr⟩ := Option.isSome_iff_exists.mp h4
      cases a with
      | str s e => rw [List.mapM_cons, hr]; rfl
      | _ => cases h3
  | str s e => exact absurd (show ("advisoryIDs" == "category" || "advisoryIDs" == "type") = true from h'.2) (by decide +kernel)
  | _ => exact absurd h'.2 (by simp)

theorem optional_string (hd : DropsOptional drop) {n : String} (hx : n ≠ "advisoryIDs") (v : Json) (hn : n ∈ optionalMembers)
    (h : drop n v = true) : v = .null ∨ (Json.string v).isSome = true := by
  have h' := hd _ v hn h
  simp only [optionalValue, Bool.and_eq_true] at h'
  cases v with
  | null => exact .inl rfl
  | str s e => exact .inr rfl
  | arr l =>
    have h2 : (n == "advisoryIDs" && _) = true := h'.2
    rw [Bool.and_eq_true, beq_iff_eq] at h2
    exact absurd h2.1 hx
  | _ => exact absurd h'.2 (by simp)

theorem qeTcb_alike : ReadsAlike drop id qeTcbOfJson := by
  intro j
  unfold qeTcbOfJson
  refine alike_fields fun b r hr => ?_
  match r, hr with
  | [a], _ => exact req_alike (uint_alike _) (by decide +kernel) b a

theorem qeLevel_alike (hd : DropsOptional drop) (d : String → Option Int) :
    ReadsAlike drop (fun l : QeTcbLevel => (l.isvsvn, l.tcbDate, l.tcbStatus)) (QeTcbLevel.ofJson d) := by
  intro j
  unfold QeTcbLevel.ofJson
  refine alike_fields fun b r hr => ?_
  match r, hr with
  | [a, x, c, e], _ =>
    have ho := opt_alike strings_alike (optional_strings hd) b e
    simp only [List.zipWith_cons_cons, List.zipWith_nil_left,
      req_same_value qeTcb_alike (n := "tcb") (by decide +kernel),
      req_same_value (date_alike d) (n := "tcbDate") (by decide +kernel),
      req_same_value status_alike (n := "tcbStatus") (by decide +kernel)]
    generalize Json.opt (Json.vec Json.string) (cleanedField drop b "advisoryIDs" e) = x' at *
    generalize Json.opt (Json.vec Json.string) e = y' at *
    cases Json.req qeTcbOfJson a <;> try rfl
    cases Json.req (dateField d) x <;> try rfl
    cases Json.req TcbStatus.ofJson c <;> try rfl
    cases x' <;> cases y' <;> first | rfl | cases ho

theorem component_alike (hd : DropsOptional drop) : ReadsAlike drop TcbComponent.svn TcbComponent.ofJson := by
  intro j
  unfold TcbComponent.ofJson
  refine alike_fields fun b r hr => ?_
  match r, hr with
  | [a, x, c], _ =>
    have h1 := opt_alike string_alike (optional_string (n := "category") hd (by decide)) b x
    have h2 := opt_alike string_alike (optional_string (n := "type") hd (by decide)) b c
    simp only [List.zipWith_cons_cons, List.zipWith_nil_left, req_same_value (uint_alike _) (n := "svn") (by decide +kernel)]
    generalize Json.opt Json.string (cleanedField drop b "category" x) = x' at *
    generalize Json.opt Json.string x = y' at *
    generalize Json.opt Json.string (cleanedField drop b "type" c) = u' at *
    generalize Json.opt Json.string c = v' at *
    cases Json.req (Json.uint 255) a <;> try rfl
    cases x' <;> cases y' <;> first | rfl | cases h1 | skip
    cases u' <;> cases v' <;> first | rfl | cases h2

theorem tcbFull_alike (hd : DropsOptional drop) :
    ReadsAlike drop (fun p : { l : List TcbComponent // l.length = 16 } × Nat => (p.1.val.map TcbComponent.svn, p.2)) tcbFullOfJson := by
  intro j
  unfold tcbFullOfJson
  refine alike_fields fun b r hr => ?_
  match r, hr with
  | [a, x], _ =>
    have h1 := req_alike (array_alike (n := 16) (component_alike hd)) (n := "sgxtcbcomponents") (by decide +kernel) b a
    simp only [List.zipWith_cons_cons, List.zipWith_nil_left, req_same_value (uint_alike _) (n := "pcesvn") (by decide +kernel)]
    generalize Json.req (Json.array 16 TcbComponent.ofJson) (cleanedField drop b "sgxtcbcomponents" a) = x' at *
    generalize Json.req (Json.array 16 TcbComponent.ofJson) a = y' at *
    cases x' <;> cases y' <;> simp at h1
    · rfl
    · cases Json.req (Json.uint 65535) x
      · rfl
      · simp [h1]

theorem levelFull_alike (hd : DropsOptional drop) (d : String → Option Int) :
    ReadsAlike drop (fun l : TcbLevelFull => (l.components.val.map TcbComponent.svn, l.pcesvn, l.tcbStatus)) (TcbLevelFull.ofJson d) := by
  intro j
  unfold TcbLevelFull.ofJson
  refine alike_fields fun b r hr => ?_
  match r, hr with
  | [a, x, c, e], _ =>
    have ho := opt_alike strings_alike (optional_strings hd) b e
    have h1 := req_alike (tcbFull_alike hd) (n := "tcb") (by decide +kernel) b a
    simp only [List.zipWith_cons_cons, List.zipWith_nil_left,
      req_same_value (date_alike d) (n := "tcbDate") (by decide +kernel),
      req_same_value status_alike (n := "tcbStatus") (by decide +kernel)]
    generalize Json.opt (Json.vec Json.string) (cleanedField drop b "advisoryIDs" e) = x' at *
    generalize Json.opt (Json.vec Json.string) e = y' at *
    generalize Json.req tcbFullOfJson (cleanedField drop b "tcb" a) = u' at *
    generalize Json.req tcbFullOfJson a = v' at *
    cases u' <;> cases v' <;> simp at h1
    · rfl
    · cases Json.req (dateField d) x <;> try rfl
      cases Json.req TcbStatus.ofJson c <;> try rfl
      cases x' <;> cases y' <;> first | rfl | (cases ho; done) | simp [h1]

theorem bind_alike {α β γ : Type} {e : α → β} {A : Option γ} {k k' : γ → Option α} (h : ∀ a, (k' a).map e = (k a).map e) :
    (A >>= k').map e = (A >>= k).map e := by
  cases A with
  | none => rfl
  | some a => exact h a

theorem tcbInfo_alike (hd : DropsOptional drop) (d : String → Option Int) : ReadsAlike drop TcbInfo.used (TcbInfo.ofJson d) := by
  intro j
  unfold TcbInfo.ofJson
  refine alike_fields fun b r hr => ?_
  match r, hr with
  | [a, x, c, e, f, g, h, i, k], _ =>
    have h1 := req_alike (vec_alike (levelFull_alike hd d)) (n := "tcbLevels") (by decide +kernel) b k
    simp only [List.zipWith_cons_cons, List.zipWith_nil_left,
      req_same_value string_alike (n := "id") (by decide +kernel),
      req_same_value (uint_alike _) (n := "version") (by decide +kernel),
      req_same_value (date_alike d) (n := "issueDate") (by decide +kernel),
      req_same_value (date_alike d) (n := "nextUpdate") (by decide +kernel),
      req_same_value (hex_alike _) (n := "fmspc") (by decide +kernel),
      req_same_value string_alike (n := "pceId") (by decide +kernel),
      req_same_value (uint_alike _) (n := "tcbType") (by decide +kernel),
      req_same_value (uint_alike _) (n := "tcbEvaluationDataNumber") (by decide +kernel)]
    generalize Json.req (Json.vec (TcbLevelFull.ofJson d)) (cleanedField drop b "tcbLevels" k) = x' at *
    generalize Json.req (Json.vec (TcbLevelFull.ofJson d)) k = y' at *
    refine bind_alike fun _ => ?_
    refine bind_alike fun _ => ?_
    refine bind_alike fun _ => ?_
    refine bind_alike fun _ => ?_
    refine bind_alike fun _ => ?_
    refine bind_alike fun _ => ?_
    refine bind_alike fun _ => ?_
    refine bind_alike fun _ => ?_
    cases x' <;> cases y' <;> simp only [Option.map_none, Option.map_some, reduceCtorEq, Option.some.injEq] at h1
    · rfl
    · simp [TcbInfo.used, h1]

theorem identity_alike (hd : DropsOptional drop) (d : String → Option Int) :
    ReadsAlike drop EnclaveIdentity.used (EnclaveIdentity.ofJson d) := by
  intro j
  unfold EnclaveIdentity.ofJson
  refine alike_fields fun b r hr => ?_
  match r, hr with
  | [a, x, c, e, f, g, h, i, k, l, m, o], _ =>
    have h1 := req_alike (vec_alike (qeLevel_alike hd d)) (n := "tcbLevels") (by decide +kernel) b o
    simp only [List.zipWith_cons_cons, List.zipWith_nil_left,
      req_same_value string_alike (n := "id") (by decide +kernel),
      req_same_value (uint_alike _) (n := "version") (by decide +kernel),
      req_same_value (date_alike d) (n := "issueDate") (by decide +kernel),
      req_same_value (date_alike d) (n := "nextUpdate") (by decide +kernel),
      req_same_value (uint_alike _) (n := "tcbEvaluationDataNumber") (by decide +kernel),
      req_same_value (hex_alike _) (n := "miscselect") (by decide +kernel),
      req_same_value (hex_alike _) (n := "miscselectMask") (by decide +kernel),
      req_same_value (hex_alike _) (n := "attributes") (by decide +kernel),
      req_same_value (hex_alike _) (n := "attributesMask") (by decide +kernel),
      req_same_value (hex_alike _) (n := "mrsigner") (by decide +kernel),
      req_same_value (uint_alike _) (n := "isvprodid") (by decide +kernel)]
    generalize Json.req (Json.vec (QeTcbLevel.ofJson d)) (cleanedField drop b "tcbLevels" o) = x' at *
    generalize Json.req (Json.vec (QeTcbLevel.ofJson d)) o = y' at *
    refine bind_alike fun _ => ?_
    refine bind_alike fun _ => ?_
    refine bind_alike fun _ => ?_
    refine bind_alike fun _ => ?_
    refine bind_alike fun _ => ?_
    refine bind_alike fun _ => ?_
    refine bind_alike fun _ => ?_
    refine bind_alike fun _ => ?_
    refine bind_alike fun _ => ?_
    refine bind_alike fun _ => ?_
    refine bind_alike fun _ => ?_
    cases x' <;> cases y' <;> simp only [Option.map_none, Option.map_some, reduceCtorEq, Option.some.injEq] at h1
    · rfl
    · have h2 := congrArg (List.map Prod.fst) h1
      simp only [List.map_map] at h2
      have h3 : ((Prod.fst : Nat × Int × TcbStatus → Nat) ∘ fun l : QeTcbLevel => (l.isvsvn, l.tcbDate, l.tcbStatus)) =
        QeTcbLevel.isvsvn := rfl
      rw [h3] at h2
      simp [EnclaveIdentity.used, EnclaveIdentity.toQuotingEnclave, h2]

/-! ### Documents as published -/

theorem drops_nulls : DropsOptional fun _ v => v.IsNull := by
  intro n v hn hv
  cases v with
  | null => simpa [optionalValue] using hn
  | _ => cases hv

theorem drops_optional : DropsOptional optionalValue := fun _ _ _ h => h

theorem describes_tcbInfo (rd : String → Option Int) {j d : Json} (h : Describes j d) :
    (TcbInfo.ofJson rd j).map TcbInfo.used = (TcbInfo.ofJson rd d).map TcbInfo.used := by
  obtain ⟨i, h1, rfl⟩ := h
  rw [tcbInfo_same rd j i h1]
  exact (tcbInfo_alike drops_optional rd i).symm

theorem describes_identity (rd : String → Option Int) {j d : Json} (h : Describes j d) :
    (EnclaveIdentity.ofJson rd j).map EnclaveIdentity.used = (EnclaveIdentity.ofJson rd d).map EnclaveIdentity.used := by
  obtain ⟨i, h1, rfl⟩ := h
  rw [identity_same rd j i h1]
  exact (identity_alike drops_optional rd i).symm

theorem dropMembers_self {l : List (String × Json)} (h : ∀ m ∈ l, m.1 ∉ optionalMembers) : dropMembers drop l = l := by
  unfold dropMembers
  split
  · refine List.filter_eq_self.mpr fun m hm => ?_
    have : optionalMembers.contains m.1 = false := by simpa using h m hm
    rw [this]; rfl
  · rfl

theorem without_level (l : TcbLevelDoc) : l.json.without drop = l.json := by
  have h1 : (l.svns.map fun n => Json.obj [("svn", .int n)]).map (Json.without drop) =
      l.svns.map fun n => Json.obj [("svn", .int n)] := by
    rw [List.map_map]
    refine List.map_congr_left fun n _ => ?_
    simp only [Function.comp, Json.without, Json.withoutMembers]
    rw [dropMembers_self (by simp [optionalMembers])]
  unfold TcbLevelDoc.json
  simp only [Json.without, Json.withoutMembers, withoutAll_eq, h1]
  rw [dropMembers_self, dropMembers_self]
  all_goals
    intro m hm
    simp only [List.mem_cons, List.not_mem_nil, or_false] at hm
    rcases hm with rfl | rfl | rfl <;> simp [optionalMembers]

theorem without_doc (d : TcbInfoDoc) : d.json.without drop = d.json := by
  have h1 : (d.levels.map (·.json)).map (Json.without drop) = d.levels.map (·.json) := by
    rw [List.map_map]
    exact List.map_congr_left fun l _ => without_level l
  unfold TcbInfoDoc.json
  simp only [Json.without, Json.withoutMembers, withoutAll_eq, h1]
  rw [dropMembers_self]
  intro m hm
  simp only [List.mem_cons, List.not_mem_nil, or_false] at hm
  rcases hm with rfl | rfl | rfl | rfl | rfl | rfl | rfl | rfl | rfl <;> simp [optionalMembers]

theorem without_identity (d : IdentityDoc) : d.json.without drop = d.json := by
  have h1 : (d.levels.map fun l => Json.obj [("tcb", .obj [("isvsvn", .int l.1)]), ("tcbDate", .str l.2.1 false),
      ("tcbStatus", .str l.2.2 false)]).map (Json.without drop) = d.levels.map fun l => Json.obj [("tcb", .obj [("isvsvn", .int l.1)]),
      ("tcbDate", .str l.2.1 false), ("tcbStatus", .str l.2.2 false)] := by
    rw [List.map_map]
    refine List.map_congr_left fun n _ => ?_
    simp only [Function.comp, Json.without, Json.withoutMembers]
    rw [dropMembers_self, dropMembers_self]
    all_goals
      intro m hm
      simp only [List.mem_cons, List.not_mem_nil, or_false] at hm
      rcases hm with rfl | rfl | rfl <;> simp [optionalMembers]
  unfold IdentityDoc.json
  simp only [Json.without, Json.withoutMembers, withoutAll_eq, h1]
  rw [dropMembers_self]
  intro m hm
  simp only [List.mem_cons, List.not_mem_nil, or_false] at hm
  rcases hm with rfl | rfl | rfl | rfl | rfl | rfl | rfl | rfl | rfl | rfl | rfl | rfl <;> simp [optionalMembers]

/-- A text of the document itself says what is in it. -/
theorem textOf_doc {b : Bytes} {d : TcbInfoDoc} (h : Spelling.Spells b d.json) : TextOf b d.json :=
  ⟨_, h, _, .refl _, without_doc d⟩

theorem textOf_identity {b : Bytes} {d : IdentityDoc} (h : Spelling.Spells b d.json) : TextOf b d.json :=
  ⟨_, h, _, .refl _, without_identity d⟩

end Verif
