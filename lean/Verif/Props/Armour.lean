import Verif.Props.Texts
import Verif.Props.Sgx
import Verif.Proofs.Base64

/-!
# Binary data in texts: C151, C152
-/

namespace Verif

open Demo Spelling B64

/-! ### C151 Binary data in attestation evidence -/

/-- C151: no text has two meanings, and texts of the same bytes differ only by the padding at their ends. -/
theorem C151_one_meaning (t t' b b' : Bytes) (h : IsText t b) (h' : IsText t' b') :
    (t = t' → b = b') ∧ (b = b' → t.filter (· ≠ 61) = t'.filter (· ≠ 61) ∧ t.length < t'.length + 3) := by
  constructor
  · rintro rfl
    rw [← Base64.decode_iff] at h h'
    rw [h] at h'
    injection h'
  · rintro rfl
    obtain ⟨p, hp, rfl⟩ := h
    obtain ⟨q, hq, rfl⟩ := h'
    refine ⟨?_, ?_⟩
    · have : ∀ n, (List.replicate n (61 : UInt8)).filter (· ≠ 61) = [] := by
        intro n
        rw [List.filter_eq_nil_iff]
        intro c hc
        simp [List.eq_of_mem_replicate hc]
      rw [List.filter_append, List.filter_append, this, this]
    · have : padding b ≤ 2 := by unfold padding; split <;> (try split) <;> omega
      simp only [List.length_append, List.length_replicate]
      omega

/-- The padding may be left out. -/
example : IsText (Der.ascii "/w==") [255] ∧ IsText (Der.ascii "/w") [255] :=
  ⟨(Base64.decode_iff _ _).mp (by decide +kernel), (Base64.decode_iff _ _).mp (by decide +kernel)⟩

/-- C151: all bytes have a text. -/
theorem C151_text (b : Bytes) : IsText (text b) b ∧ (text b).length % 4 = 0 := by
  refine ⟨⟨padding b, Nat.le_refl _, rfl⟩, ?_⟩
  have := Base64.length_symbols b
  unfold text padding
  rw [List.length_append, List.length_replicate]
  split
  · rename_i h; rw [if_pos h] at this; omega
  · rename_i h; rw [if_neg h] at this
    split
    · rename_i h; rw [if_pos h] at this; omega
    · rename_i h; rw [if_neg h] at this; omega

example : text [255, 237] = Der.ascii "/+0=" := by decide +kernel

/-- The described reader is one that the theorems below speak about. -/
theorem C151_reader (x : Ext) (h : x.base64 = Base64.decode) : ReadsBase64 x := by
  intro t b; rw [h]; exact Base64.decode_iff t b

example : ReadsBase64 { Demo.ext with base64 := Base64.decode } := C151_reader _ rfl

theorem textMember_of_last {l : List (String × Json)} {n t : String} (h : LastText l n t) : (Json.obj l).textMember n = some t := by
  obtain ⟨b, a, e, rfl, h⟩ := h
  have ha : a.filter (fun m => m.1 == n) = [] := by
    rw [List.filter_eq_nil_iff]
    intro m hm
    simpa using h m hm
  simp [Json.textMember, List.filter_append, List.filter_cons, ha, Json.string]

theorem text_no_bar {t b : Bytes} (h : IsText t b) : ∀ c ∈ t, c ≠ 124 ∧ c ≠ 45 ∧ c ≠ 10 ∧ c ≠ 13 ∧ c < 128 := by
  obtain ⟨p, _, rfl⟩ := h
  intro c hc
  rcases List.mem_append.mp hc with hc | hc
  · obtain ⟨n, hn, rfl⟩ := Base64.mem_symbols hc
    have h13 : ∀ n, n < 64 → symbol n ≠ 13 := by decide +kernel
    obtain ⟨_, h1, h2, h3, h4⟩ := Base64.symbol_ne n hn
    exact ⟨h1, h2, h3, h13 n hn, h4⟩
  · rw [List.eq_of_mem_replicate hc]; decide

theorem lengthBytes_two {n : Nat} (h1 : 256 ≤ n) (h2 : n < 65536) :
    Der.lengthBytes n = [0x82, UInt8.ofNat (n / 256), UInt8.ofNat (n % 256)] := by
  unfold Der.lengthBytes
  rw [if_neg (by omega), if_neg (by omega), if_pos h2]

theorem netscape_of_carries {x : Ext} (hb : ReadsBase64 x) {der report sig cert : Bytes} (h : Carries der report sig cert) :
    NetscapeIn x der report sig cert := by
  obtain ⟨pre, post, s, k, body, hs, hk, hbody, hr, h1, h2, hd, hf⟩ := h
  refine ⟨pre, post, s, k, 4, Der.lengthBytes body.length, by rw [← hbody]; exact hd, hf, .inr ?_, hr,
    fun hc => (text_no_bar hs _ hc).1 rfl, fun hc => (text_no_bar hk _ hc).1 rfl, (hb _ _).mpr hs, (hb _ _).mpr hk⟩
  refine ⟨0x82, UInt8.ofNat (body.length / 256), UInt8.ofNat (body.length % 256), lengthBytes_two h1 h2, by decide, ?_⟩
  rw [← hbody, Base64.byte_ofNat (by omega), Base64.byte_ofNat (by omega)]
  omega

/-- C151: the measurement, signer, key and mode of an enclave with a report of Intel (IAS) are the bytes of the quote whose
text is the last such member of the signed report. The hypotheses are met by the example "The hypotheses of
`C151_report` are met" below. -/
theorem C151_report (c : Cfg) (s0 : Chain) (ops : List Op) (h0 : NoEnclaves s0) (hr : ReadsJson c.ext) (hb : ReadsBase64 c.ext)
    (a : AccountId) (e : SgxEnclave) (h : (run c s0 ops).tx.sovereign a = some e) (hm : e.method = .ias) :
    ∃ s proof report sig cert l body quote,
      (s, .ext (.signed a) (.registerSgxEnclave proof e.url e.method)) ∈ accepted c s0 ops ∧
      NetscapeIn c.ext proof report sig cert ∧ c.ext.certVerifySig .rsaPkcs1Sha256 cert report sig = true ∧
      Spells report (.obj l) ∧ LastText l "isvEnclaveQuoteBody" body ∧ IsText body.toUTF8.data.toList quote ∧ 432 ≤ quote.length ∧
      e.mrEnclave.val = sub quote 112 32 ∧ e.mrSigner.val = sub quote 176 32 ∧ e.reportData.val = sub quote 368 64 ∧
      a.val = sub quote 368 32 ∧ (e.buildMode = .debug ↔ (leNat (sub quote 96 8)).testBit 1 = true) := by
  obtain ⟨hkey, _, s, proof, hmem, hatt⟩ := C12_sovereign_own_key c s0 ops h0 a e h
  simp only [Attested, hm] at hatt
  obtain ⟨r, h1, ⟨e1, e2, e3, _, e5⟩, _⟩ := hatt
  obtain ⟨report, sig, cert, js, ts, secs, st, body, quote, n1, _, n2, _, n3, _, _, _, _, _, n9, n10, n11, n12, n13, n14, n15⟩ := h1.signed
  simp only [Ext.jsonReport, Option.map_eq_some_iff] at n3
  obtain ⟨j, hj, rfl⟩ := n3
  obtain ⟨l, rfl, lt⟩ := textMember_last n9
  refine ⟨s, proof, report, sig, cert, l, body, quote, by rw [hm] at hmem ⊢; exact hmem, n1, n2, (hr _ _).mp hj, lt, (hb _ _).mp n10, n11,
    by rw [e2]; exact n12, by rw [e3]; exact n13, by rw [e1]; exact n14, ?_, by rw [e5]; exact n15⟩
  rw [← hkey, e1, n14]
  simp only [sub, List.take_take]
  rfl

/-- C151: whoever holds a report of Intel (IAS) on an enclave with their key can register it on the day of the report,
however the texts in it are laid out, and gets exactly the entry that the report describes. The hypotheses are met by
the example "The hypotheses of `C151_accepted` are met" below. -/
theorem C151_accepted (c : Cfg) (s : Chain) (a : AccountId) (der report sig cert quote : Bytes) (url : Option Bytes)
    (l : List (String × Json)) (status body : String) (t t' n : CivilTime) (f : List Char)
    (hr : ReadsJson c.ext) (hb : ReadsBase64 c.ext) (hx : ReadsTimes c.ext) (hday : c.momentsPerDay = 24 * 60 * 60 * 1000)
    (hc : Carries der report sig cert) (hlen : der.length ≤ 5000) (hurl : ∀ u, url = some u → u.length ≤ 256)
    (h1 : c.ext.certParses cert = true) (h2 : c.ext.certVerifySig .rsaPkcs1Sha256 cert report sig = true)
    (h3 : c.ext.iasCertValid cert 1573419050 = true) (hs : Spells report (.obj l))
    (ht : LastText l "timestamp" (t.reportText f)) (htv : t.Valid) (hf : Fraction f) (hfl : f.length ≤ 10) (h70 : 1970 ≤ t.year)
    (hst : LastText l "isvEnclaveQuoteStatus" status) (hq : LastText l "isvEnclaveQuoteBody" body)
    (hq' : IsText body.toUTF8.data.toList quote) (hql : 432 ≤ quote.length) (hkey : sub quote 368 32 = a.val)
    (hdb : s.tx.allowDebug = true ∨ (leNat (sub quote 96 8)).testBit 1 = false)
    (hn : ClockShows s n) (hn1 : ¬ n.Before t) (hnd : NextDay t t') (ht' : t'.Valid) (hn2 : n.Before t') :
    ∃ s' e, exec c s (.ext (.signed a) (.registerSgxEnclave der url .ias)) = .ok s' ∧ s'.tx.sovereign a = some e ∧
      e.mrEnclave.val = sub quote 112 32 ∧ e.mrSigner.val = sub quote 176 32 ∧ e.reportData.val = sub quote 368 64 ∧
      (e.timestamp : Int) = t.seconds * 1000 ∧ e.status = iasStatus status ∧ e.url = url ∧ e.method = .ias ∧
      e.buildMode = (if (leNat (sub quote 96 8)).testBit 1 = true then .debug else .production) := by
  obtain ⟨n1, n2, n3⟩ := hn
  have hl : ∀ i k, i + k ≤ quote.length → (sub quote i k).length = k := by
    intro i k h; simp only [sub, List.length_take, List.length_drop]; omega
  have l0 : 0 ≤ t.seconds := by
    have h0 : (⟨1970, 1, 1, 0, 0, 0⟩ : CivilTime).seconds = 0 := (C150_calendar t t htv).1
    have hv : (⟨1970, 1, 1, 0, 0, 0⟩ : CivilTime).Valid := by decide
    by_cases hl : t.seconds < (⟨1970, 1, 1, 0, 0, 0⟩ : CivilTime).seconds
    · have := (CivilTime.seconds_lt_iff htv hv).mp hl
      obtain ⟨_, a1, _, a2, _⟩ := htv
      unfold CivilTime.Before at this
      simp only at this
      omega
    · omega
  rw [← CivilTime.seconds_lt_iff n1 htv] at hn1
  rw [← CivilTime.seconds_lt_iff n1 ht'] at hn2
  have hd := (C150_calendar t t' htv).2.1 hnd
  obtain ⟨ts, hts⟩ : ∃ ts : Nat, (ts : Int) = t.seconds * 1000 := by
    have hz : 0 ≤ t.seconds * 1000 := by omega
    exact ⟨_, Int.toNat_of_nonneg hz⟩
  have w1 : ts ≤ s.now := by omega
  have w2 : s.now < ts + c.momentsPerDay := by omega
  let r : SgxVerifiedReport :=
    { mrEnclave := ⟨sub quote 112 32, hl _ _ (by omega)⟩, mrSigner := ⟨sub quote 176 32, hl _ _ (by omega)⟩
      status := iasStatus status, timestamp := ts
      buildMode := if (leNat (sub quote 96 8)).testBit 1 = true then .debug else .production
      reportData := ⟨sub quote 368 64, hl _ _ (by omega)⟩ }
  let e : SgxEnclave :=
    { reportData := r.reportData, mrEnclave := r.mrEnclave, mrSigner := r.mrSigner, timestamp := r.timestamp, url := url
      buildMode := r.buildMode, method := .ias, status := r.status }
  have hrep : AuthenticIas c.ext der r :=
    ⟨report, sig, cert, _, t.reportText f, t.seconds, status, body, quote, netscape_of_carries hb hc, h1, h2, h3,
      by rw [Ext.jsonReport, (hr _ _).mpr hs]; rfl, textMember_of_last ht, hx t f htv hf hfl, hts, textMember_of_last hst, rfl,
      textMember_of_last hq, (hb _ _).mpr hq', hql, rfl, rfl, rfl, by simp [r]⟩
  have hatt : Attested c s a der e := ⟨r, hrep, ⟨rfl, rfl, rfl, rfl, rfl⟩, rfl, w1, w2⟩
  have hkey' : e.reportData.val.take 32 = a.val := by
    show List.take 32 (sub quote 368 64) = a.val
    rw [← hkey]
    simp only [sub, List.take_take]
    rfl
  have hmode : s.tx.allowDebug = true ∨ e.buildMode ≠ .debug := by
    rcases hdb with h | h
    · exact .inl h
    · right; simp [e, r, h]
  have hm : e.method = .ias := rfl
  have hu : e.url = url := rfl
  have hp : e.proxied = false := rfl
  have ho : Origin.signed a = .signed a := rfl
  have hok := register_iff.mpr ⟨a, e, ho, hlen, hurl, hm, hu, hatt, hmode, .inl ⟨hp, hkey', rfl⟩⟩
  exact ⟨_, e, hok, by simp [upd], rfl, rfl, rfl, hts, rfl, rfl, rfl, rfl⟩

/-! ### C152 Line ends in certificate chains -/

/-- The full claim: a chain in the textual form of RFC 7468 is read as its certificates. It is false for the code, see
`C152_refuted`. -/
def C152_Full : Prop := ∀ (x : Ext) (eol chain : Bytes) (certs : List Bytes), ReadsBase64 x → eol ∈ lineEnds → IsPem eol chain certs →
  extractCerts x chain = certs

theorem pem_bodies {chain : Bytes} {certs : List Bytes} (h : IsPem [10] chain certs) : ∃ ps : List (Bytes × Bytes),
    chain = (ps.map Prod.fst).flatMap Der.armour ∧ certs = ps.map Prod.snd ∧
    ∀ p ∈ ps, Der.IsBody p.1 ∧ IsText (Der.joinLines p.1) p.2 := by
  induction h with
  | nil => exact ⟨[], rfl, rfl, by simp⟩
  | cons lines cert rest certs hne ht hr ih =>
    obtain ⟨ps, rfl, rfl, hp⟩ := ih
    have hmem : ∀ c ∈ lines.flatten, c ≠ 124 ∧ c ≠ 45 ∧ c ≠ 10 ∧ c ≠ 13 ∧ c < 128 := text_no_bar ht
    have hjoin : ∀ ls : List Bytes, (∀ c ∈ ls.flatten, c ≠ 10) → Der.joinLines (ls.flatMap (· ++ [10])) = ls.flatten := by
      intro ls hls
      induction ls with
      | nil => rfl
      | cons l ls ih =>
        simp only [List.flatten_cons, List.mem_append] at hls
        have h1 : l.filter (· ≠ 10) = l := List.filter_eq_self.mpr fun c hc => by simpa using hls c (.inl hc)
        have ih := ih fun c hc => hls c (.inr hc)
        simp only [Der.joinLines, List.flatMap_cons, List.filter_append, List.flatten_cons] at ih ⊢
        rw [ih, h1]
        simp
    have hbody : ∃ b : Bytes, lines.flatMap (· ++ [10]) = b ++ [10] := by
      have : lines ≠ [] := by
        rintro rfl
        obtain ⟨p, _, hp⟩ := ht
        have h0 : symbols cert = [] := by
          simp only [List.flatten_nil] at hp
          exact (List.append_eq_nil_iff.mp hp.symm).1
        match cert, hne with
        | [x], _ => simp [symbols] at h0
        | [x, y], _ => simp [symbols] at h0
        | x :: y :: z :: r, _ => simp [symbols] at h0
      obtain ⟨init, last, rfl⟩ : ∃ init last, lines = init ++ [last] := ⟨_, _, (List.dropLast_concat_getLast this).symm⟩
      exact ⟨init.flatMap (· ++ [10]) ++ last, by simp [List.flatMap_append]⟩
    obtain ⟨b, hb⟩ := hbody
    have hj : Der.joinLines b = lines.flatten := by
      have := hjoin lines fun c hc => (hmem c hc).2.2.1
      rw [hb] at this
      rw [← this]
      simp [Der.joinLines, List.filter_append]
    refine ⟨(b, cert) :: ps, ?_, rfl, ?_⟩
    · rw [hb]
      have e1 : Der.ascii "-----BEGIN CERTIFICATE-----\n" = Der.ascii "-----BEGIN CERTIFICATE-----" ++ [10] := by decide
      have e2 : Der.ascii "\n-----END CERTIFICATE-----\n" = [10] ++ Der.ascii "-----END CERTIFICATE-----" ++ [10] := by decide
      simp only [List.map_cons, List.flatMap_cons, Der.armour, e1, e2, List.append_assoc]
    · intro p hp'
      rcases List.mem_cons.mp hp' with rfl | hp'
      · refine ⟨⟨fun c hc => ?_, ?_⟩, by rw [hj]; exact ht⟩
        · by_cases h10 : c = 10
          · subst h10; decide
          · have : c ∈ Der.joinLines b := List.mem_filter.mpr ⟨hc, by simpa using h10⟩
            rw [hj] at this
            exact ⟨(hmem c this).2.2.2.2, (hmem c this).2.1⟩
        · have : Der.joinLines b ≠ [] := by
            rw [hj]
            intro h0
            rw [h0] at ht
            obtain ⟨p, _, hp⟩ := ht
            have h0 : symbols cert = [] := (List.append_eq_nil_iff.mp hp.symm).1
            match cert, hne with
            | [x], _ => simp [symbols] at h0
            | [x, y], _ => simp [symbols] at h0
            | x :: y :: z :: r, _ => simp [symbols] at h0
          obtain ⟨c, hc⟩ := List.exists_mem_of_ne_nil _ this
          exact ⟨c, (List.mem_filter.mp hc).1, by simpa using (List.mem_filter.mp hc).2⟩
      · exact hp p hp'

/-- C152, proved part: with line feeds as line ends the certificates are read, whatever the length of the lines. A zero byte
and further line feeds at the end do not matter. Missing: the other line ends of RFC 7468, see `C152_carriage_return`.
The hypotheses are met by the example "One chain of two certificates in two layouts" below. -/
theorem C152_chain_partial (x : Ext) (chain tail : Bytes) (certs : List Bytes) (hb : ReadsBase64 x) (h : IsPem [10] chain certs)
    (ht : ∀ c ∈ tail, c = 10 ∨ c = 0) : extractCerts x (chain ++ tail) = certs := by
  obtain ⟨ps, rfl, rfl, hp⟩ := pem_bodies h
  refine C75_roundtrip x ps tail (fun p hm => ⟨(hp p hm).1, (hb _ _).mpr (hp p hm).2⟩) (fun c hc => ?_) ?_
  · rcases ht c hc with rfl | rfl <;> decide
  · by_cases h0 : Der.joinLines tail = []
    · exact .inl h0
    · right
      cases hd : x.base64 (Der.joinLines tail) with
      | none => rfl
      | some b =>
        obtain ⟨c, hc⟩ := List.exists_mem_of_ne_nil _ h0
        have hc' := List.mem_filter.mp hc
        have hz : c = 0 := by
          rcases ht c hc'.1 with rfl | rfl
          · simp at hc'
          · rfl
        subst hz
        obtain ⟨p, _, hp⟩ := (hb _ _).mp hd
        rw [hp] at hc
        rcases List.mem_append.mp hc with hc | hc
        · obtain ⟨n, hn, h0⟩ := Base64.mem_symbols hc
          have : ∀ n, n < 64 → symbol n ≠ 0 := by decide +kernel
          exact absurd h0.symm (this n hn)
        · have := List.eq_of_mem_replicate hc
          exact absurd this (by decide)

/-- C152, proved part: it does not matter on how many lines the certificates of a chain are written, nor how they are
padded. The hypotheses are met by the example "One chain of two certificates in two layouts" below. -/
theorem C152_layout_partial (c : Cfg) (s : Chain) (o : Origin) (data sig chain chain' : Bytes) (certs : List Bytes)
    (hb : ReadsBase64 c.ext) (h : IsPem [10] chain certs) (h' : IsPem [10] chain' certs) :
    exec c s (.ext o (.registerTcbInfo data sig chain)) = exec c s (.ext o (.registerTcbInfo data sig chain')) ∧
    exec c s (.ext o (.registerQuotingEnclave data sig chain)) = exec c s (.ext o (.registerQuotingEnclave data sig chain')) := by
  have e : extractCerts c.ext chain = extractCerts c.ext chain' := by
    have h1 := C152_chain_partial c.ext chain [] certs hb h (by simp)
    have h2 := C152_chain_partial c.ext chain' [] certs hb h' (by simp)
    rw [List.append_nil] at h1 h2
    rw [h1, h2]
  constructor
  · simp only [exec, dispatch, Teerex.registerTcbInfo, Teerex.verifyTcbInfo, Teerex.verifyCollateralCerts, e]
  · simp only [exec, dispatch, Teerex.registerQuotingEnclave, Teerex.verifyQuotingEnclave, Teerex.verifyCollateralCerts, e]

theorem base64Str_cr {x : Ext} (hb : ReadsBase64 x) {p : List Nat} (h : 13 ∈ p) : base64Str x p = none := by
  unfold base64Str
  split
  · cases hd : x.base64 (p.map UInt8.ofNat) with
    | none => rfl
    | some b =>
      have hm : UInt8.ofNat 13 ∈ p.map UInt8.ofNat := List.mem_map.mpr ⟨13, h, rfl⟩
      exact absurd rfl (text_no_bar ((hb _ _).mp hd) _ hm).2.2.2.1
  · rfl

theorem pem_gaps {eol chain : Bytes} {certs : List Bytes} (he : eol = [13] ∨ eol = [13, 10]) (h : IsPem eol chain certs) :
    (∀ c ∈ chain, c < 128) ∧ ∀ g : List Nat, g = [] ∨ g = [13] → ∃ bs tail,
      g ++ (chain.map UInt8.toNat).filter (· ≠ 10) = joinedGaps bs tail ∧
      (∀ p ∈ bs, (Gap p.1 ∧ ∀ c ∈ p.2, c ≠ 45) ∧ 13 ∈ p.2) ∧ (tail = [] ∨ tail = [13]) := by
  induction h with
  | nil => exact ⟨by simp, fun g hg => ⟨[], g, by simp [joinedGaps], by simp, hg⟩⟩
  | cons lines cert rest certs hne ht hr ih =>
    have hmem : ∀ c ∈ lines.flatten, c ≠ 124 ∧ c ≠ 45 ∧ c ≠ 10 ∧ c ≠ 13 ∧ c < 128 := text_no_bar ht
    have heol : ∀ c ∈ eol, c < 128 ∧ c ≠ 45 := by
      rcases he with rfl | rfl <;> decide
    have hbody : ∀ c ∈ lines.flatMap (· ++ eol), c < 128 ∧ c ≠ 45 := by
      intro c hc
      obtain ⟨li, hl, hc⟩ := List.mem_flatMap.mp hc
      rcases List.mem_append.mp hc with hc | hc
      · have := hmem c (List.mem_flatten.mpr ⟨li, hl, hc⟩)
        exact ⟨this.2.2.2.2, this.2.1⟩
      · exact heol c hc
    refine ⟨?_, ?_⟩
    · intro c hc
      simp only [List.mem_append] at hc
      rcases hc with ((((hc | hc) | hc) | hc) | hc) | hc
      · exact (by decide : ∀ c ∈ Der.ascii "-----BEGIN CERTIFICATE-----", c < 128) c hc
      · exact (heol c hc).1
      · exact (hbody c hc).1
      · exact (by decide : ∀ c ∈ Der.ascii "-----END CERTIFICATE-----", c < 128) c hc
      · exact (heol c hc).1
      · exact ih.1 c hc
    · intro g hg
      obtain ⟨bs, tail, h1, h2, h3⟩ := ih.2 [13] (.inr rfl)
      have e1 : ((Der.ascii "-----BEGIN CERTIFICATE-----").map UInt8.toNat).filter (· ≠ 10) = pemBegin := by decide
      have e2 : ((Der.ascii "-----END CERTIFICATE-----").map UInt8.toNat).filter (· ≠ 10) = pemEnd := by decide
      have e3 : (eol.map UInt8.toNat).filter (· ≠ 10) = [13] := by rcases he with rfl | rfl <;> decide
      refine ⟨(g, 13 :: ((lines.flatMap (· ++ eol)).map UInt8.toNat).filter (· ≠ 10)) :: bs, tail, ?_, ?_, h3⟩
      · simp only [List.map_append, List.filter_append, e1, e2, e3, joinedGaps, ← h1]
        simp
      · intro p hp
        rcases List.mem_cons.mp hp with rfl | hp
        · refine ⟨⟨?_, ?_⟩, by simp⟩
          · rcases hg with rfl | rfl <;> simp [Gap]
          · intro c hc
            rcases List.mem_cons.mp hc with rfl | hc
            · decide
            · obtain ⟨u, hu, rfl⟩ := List.mem_map.mp (List.mem_filter.mp hc).1
              intro h45
              exact (hbody u hu).2 (UInt8.toNat_inj.mp h45)
        · exact h2 p hp

/-- C152: with carriage returns in the ends of lines no certificate is found at all, and the chain is refused as too short.
The hypotheses are met in the proof of `C152_refuted` and in the last example below. -/
theorem C152_carriage_return (c : Cfg) (s : Chain) (a : AccountId) (data sig eol chain : Bytes) (certs : List Bytes)
    (hb : ReadsBase64 c.ext) (he : eol = [13] ∨ eol = [13, 10]) (h : IsPem eol chain certs) :
    extractCerts c.ext chain = [] ∧
    exec c s (.ext (.signed a) (.registerTcbInfo data sig chain)) = .error (.sgx .certificateChainIsTooShort) ∧
    exec c s (.ext (.signed a) (.registerQuotingEnclave data sig chain)) = .error (.sgx .certificateChainIsTooShort) := by
  have key : extractCerts c.ext chain = [] := by
    obtain ⟨ha, hg⟩ := pem_gaps he h
    obtain ⟨bs, tail, h1, h2, h3⟩ := hg [] (.inl rfl)
    rw [List.nil_append] at h1
    have ht : Gap tail := by rcases h3 with rfl | rfl <;> simp [Gap]
    rw [extractCerts_gaps c.ext chain bs tail ha h1 (fun p hp => (h2 p hp).1) ht, List.filterMap_eq_nil_iff]
    intro p hp
    rcases List.mem_append.mp (List.mem_filter.mp hp).1 with hm | hm
    · obtain ⟨q, hq, rfl⟩ := List.mem_map.mp hm
      exact base64Str_cr hb (List.mem_append.mpr (.inr (h2 q hq).2))
    · rw [List.mem_singleton] at hm
      subst hm
      rcases h3 with rfl | rfl
      · simp at hp
      · exact base64Str_cr hb (by simp)
  refine ⟨key, ?_, ?_⟩
  · simp only [exec, dispatch, Teerex.registerTcbInfo, Teerex.verifyTcbInfo, Teerex.verifyCollateralCerts, key]
    rfl
  · simp only [exec, dispatch, Teerex.registerQuotingEnclave, Teerex.verifyQuotingEnclave, Teerex.verifyCollateralCerts, key]
    rfl

/-- A certificate chain of two certificates, in two layouts. -/
def armourCfg : Cfg := { textCfg with ext := { textCfg.ext with base64 := Base64.decode } }

theorem armourCfg_reads : ReadsBase64 armourCfg.ext := C151_reader _ rfl

theorem C152_refuted : ¬ C152_Full := by
  intro h
  have hp : IsPem [13, 10] _ [[1, 2, 3]] := .cons [Der.ascii "AQID"] [1, 2, 3] [] [] (by simp) ⟨0, by decide, by decide +kernel⟩ .nil
  have h1 := h armourCfg.ext [13, 10] _ _ armourCfg_reads (by simp [lineEnds]) hp
  have h2 := (C152_carriage_return armourCfg start alice [] [] [13, 10] _ _ armourCfg_reads (.inr rfl) hp).1
  rw [h2] at h1
  simp at h1

/-! ### Examples -/

/-- The padding of one, two and three bytes. -/
example : IsText (Der.ascii "/w==") [255] ∧ IsText (Der.ascii "/w") [255] ∧ IsText (Der.ascii "/+0=") [255, 237] ∧
    IsText (Der.ascii "TWFu") (Der.ascii "Man") ∧ (∀ b, ¬ IsText (Der.ascii "/x==") b) ∧ ∀ b, ¬ IsText (Der.ascii "TWFu=") b := by
  refine ⟨(Base64.decode_iff _ _).mp (by decide +kernel), (Base64.decode_iff _ _).mp (by decide +kernel),
    (Base64.decode_iff _ _).mp (by decide +kernel), (Base64.decode_iff _ _).mp (by decide +kernel), fun b h => ?_, fun b h => ?_⟩
  all_goals
    have hn := (Base64.decode_iff _ _).mpr h
    rw [show Base64.decode _ = none by decide +kernel] at hn
    simp at hn

/-- The text of a quote. -/
def bodyText : String := String.ofList ((text iasQuote).map fun b => Char.ofNat b.toNat)

/-- The members of a report. -/
def reportMembers : List (String × Json) :=
  [("timestamp", .str "2024-01-23T08:00:00.125" false), ("isvEnclaveQuoteStatus", .str "OK" false),
    ("isvEnclaveQuoteBody", .str bodyText false)]

/-- Its text. -/
def reportBytes : Bytes :=
  Der.ascii "{\"timestamp\":\"2024-01-23T08:00:00.125\", \"isvEnclaveQuoteStatus\":\"OK\",\n\"isvEnclaveQuoteBody\":\"" ++
    (text iasQuote ++ Der.ascii "\"}")

/-- The certificate of an enclave with this report. -/
def reportProof : Bytes :=
  nsCmtOid ++ [4] ++ Der.lengthBytes (reportBytes ++ [124] ++ Der.ascii "AQID" ++ [124] ++ Der.ascii "BAU=").length ++
    (reportBytes ++ [124] ++ Der.ascii "AQID" ++ [124] ++ Der.ascii "BAU=")

theorem report_spells : Spells reportBytes (.obj reportMembers) := JsonText.spells_of_parse (by decide +kernel)

theorem report_carried : Carries reportProof reportBytes [1, 2, 3] [4, 5] :=
  ⟨[], [], Der.ascii "AQID", Der.ascii "BAU=", _, (Base64.decode_iff _ _).mp (by decide +kernel),
    (Base64.decode_iff _ _).mp (by decide +kernel), rfl, by decide +kernel, by decide +kernel, by decide +kernel,
    by simp [reportProof], fun p _ _ => Nat.zero_le _⟩

theorem body_text : IsText bodyText.toUTF8.data.toList iasQuote := (Base64.decode_iff _ _).mp (by decide +kernel)

theorem report_time : (⟨2024, 1, 23, 8, 0, 0⟩ : CivilTime).reportText ".125".toList = "2024-01-23T08:00:00.125" := by decide +kernel

/-- The hypotheses of `C151_accepted` are met. -/
example : ∃ s' e, exec armourCfg inJanuary (.ext (.signed alice) (.registerSgxEnclave reportProof none .ias)) = .ok s' ∧
    s'.tx.sovereign alice = some e ∧ e.mrEnclave.val = sub iasQuote 112 32 ∧ (e.timestamp : Int) = 1705996800000 := by
  obtain ⟨s', e, h1, h2, h3, _, _, h4, _⟩ := C151_accepted armourCfg inJanuary alice reportProof reportBytes [1, 2, 3] [4, 5] iasQuote none
    reportMembers "OK" bodyText ⟨2024, 1, 23, 8, 0, 0⟩ ⟨2024, 1, 24, 8, 0, 0⟩ ⟨2024, 1, 23, 8, 53, 20⟩ ".125".toList
    textCfg_readsJson armourCfg_reads textCfg_readsTimes rfl report_carried (by decide +kernel) (by simp) rfl rfl rfl report_spells
    ⟨[], reportMembers.tail, false, by rw [report_time]; rfl, by decide +kernel⟩ (by decide)
    (.inr ⟨['1', '2', '5'], by unfold Digits; decide +kernel, by decide +kernel⟩) (by decide +kernel) (by decide)
    ⟨reportMembers.take 1, reportMembers.drop 2, false, rfl, by decide +kernel⟩ ⟨reportMembers.take 2, [], false, rfl, by simp⟩ body_text
    (by decide +kernel) (by decide +kernel) (.inr (by decide +kernel)) january_clock (by decide) (.day _ (by decide)) (by decide) (by decide)
  exact ⟨s', e, h1, h2, h3, h4.trans (by decide +kernel)⟩

/-- The hypotheses of `C151_report` are met. -/
example : NoEnclaves inJanuary ∧ ReadsJson armourCfg.ext ∧ ReadsBase64 armourCfg.ext ∧
    ((run armourCfg inJanuary [.ext (.signed alice) (.registerSgxEnclave reportProof none .ias)]).tx.sovereign alice).map (·.method) =
      some .ias :=
  ⟨⟨fun _ => rfl, fun _ => rfl⟩, textCfg_readsJson, armourCfg_reads, by decide +kernel⟩

/-- One chain of two certificates in two layouts. -/
example : ∃ chain chain', chain ≠ chain' ∧ IsPem [10] chain [[1, 2, 3], [4, 5]] ∧ IsPem [10] chain' [[1, 2, 3], [4, 5]] ∧
    ∃ chain'', IsPem [13, 10] chain'' [[1, 2, 3], [4, 5]] := by
  have t1 : IsText (Der.ascii "AQID") [1, 2, 3] := (Base64.decode_iff _ _).mp (by decide +kernel)
  have t2 : IsText (Der.ascii "BAU") [4, 5] := (Base64.decode_iff _ _).mp (by decide +kernel)
  have t3 : IsText (Der.ascii "BAU=") [4, 5] := (Base64.decode_iff _ _).mp (by decide +kernel)
  refine ⟨_, _, ?_, .cons [Der.ascii "AQID"] _ _ _ (by simp) t1 (.cons [Der.ascii "BAU="] _ _ _ (by simp) t3 .nil),
    .cons [Der.ascii "A", Der.ascii "QID"] _ _ _ (by simp) t1 (.cons [Der.ascii "BAU"] _ _ _ (by simp) t2 .nil),
    _, .cons [Der.ascii "AQID"] _ _ _ (by simp) t1 (.cons [Der.ascii "BAU="] _ _ _ (by simp) t3 .nil)⟩
  decide +kernel

end Verif
