import Verif.Props.Claims
import Verif.Proofs.Hex

/-!
# Claim messages of different networks: C163
-/

namespace Verif

open Claims Demo

/-! ### C163 A signed claim message is good for one network only -/

/-- The bytes that are signed for an unsigned claim, on a network with the given prefix. -/
def messageOf (pre : Bytes) : ClaimsCall → Option Bytes
  | .claim dest _ => some (personalMessage (claimPayload pre dest []))
  | .claimAttest dest _ st => some (personalMessage (claimPayload pre dest st))
  | _ => none

/-- The account that an unsigned claim names, and the statement that it makes. -/
def namedIn : ClaimsCall → Option (AccountId × Bytes)
  | .claim dest _ => some (dest, [])
  | .claimAttest dest _ st => some (dest, st)
  | _ => none

theorem payload_of_message {p p' : Bytes} {d d' : AccountId} {st st' : Bytes}
    (h : personalMessage (claimPayload p d st) = personalMessage (claimPayload p' d' st')) : claimPayload p d st = claimPayload p' d' st' := by
  have hne : ∀ (p : Bytes) (d : AccountId) (st : Bytes), claimPayload p d st ≠ [] := by
    intro p d st he
    have := congrArg List.length he
    simp only [claimPayload, List.length_append, Verif.hexOf_length, d.property, List.length_nil] at this
    omega
  exact personalMessage_inj _ _ (hne _ _ _) (hne _ _ _) h

theorem hex_text : (l : Bytes) → (∀ x ∈ l, ∃ n < 16, x = hexDigit n) → l.length % 2 = 0 → ∃ b, hexOf b = l
  | [], _, _ => ⟨[], rfl⟩
  | [_], _, h => by simp at h
  | x :: y :: l, hx, hl => by
    obtain ⟨b, hb⟩ := hex_text l (fun z hz => hx z (by simp [hz])) (by simp only [List.length_cons] at hl; omega)
    obtain ⟨m, hm, rfl⟩ := hx x (by simp)
    obtain ⟨n, hn, rfl⟩ := hx y (by simp)
    refine ⟨UInt8.ofNat (16 * m + n) :: b, ?_⟩
    rw [hexOf_cons, hb, UInt8.toNat_ofNat', Nat.mod_eq_of_lt (by omega), show (16 * m + n) / 16 = m by omega,
      show (16 * m + n) % 16 = n by omega]

theorem extends_of_payload {p p' : Bytes} {d d' : AccountId} {st st' : Bytes} (h : claimPayload p d st = claimPayload p' d' st') :
    (∃ q, p' = p ++ q ∧ hexOf d.val ++ st = q ++ (hexOf d'.val ++ st')) ∨ ∃ q, p = p' ++ q ∧ hexOf d'.val ++ st' = q ++ (hexOf d.val ++ st) := by
  unfold claimPayload at h
  rw [List.append_assoc, List.append_assoc] at h
  rcases List.append_eq_append_iff.mp h with ⟨q, h1, h2⟩ | ⟨q, h1, h2⟩
  · exact .inl ⟨q, h1, h2⟩
  · exact .inr ⟨q, h1, h2⟩

/-- C163: exactly when two networks have a message in common, over all accounts and all statements whatever: if one prefix is the
other one followed by something whose first 64 characters are hexadecimal digits (or all of it, if it is shorter). -/
theorem C163_exact (p p' : Bytes) :
    (∃ d d' st st', personalMessage (claimPayload p d st) = personalMessage (claimPayload p' d' st')) ↔
      ∃ q, (p' = p ++ q ∨ p = p' ++ q) ∧ ∀ x ∈ q.take 64, ∃ n < 16, x = hexDigit n := by
  constructor
  · rintro ⟨d, d', st, st', h⟩
    have key : ∀ (d d' : AccountId) (st st' q : Bytes), hexOf d.val ++ st = q ++ (hexOf d'.val ++ st') →
        ∀ x ∈ q.take 64, ∃ n < 16, x = hexDigit n := by
      intro d d' st st' q he x hx
      have h64 : (hexOf d.val).length = 64 := by rw [hexOf_length, d.property]
      have := congrArg (List.take 64) he
      rw [← h64, List.take_left, h64, List.take_append] at this
      refine hexOf_mem (b := d.val) ?_
      rw [this]
      exact List.mem_append.mpr (.inl hx)
    rcases extends_of_payload (payload_of_message h) with ⟨q, h1, h2⟩ | ⟨q, h1, h2⟩
    · exact ⟨q, .inl h1, key _ _ _ _ _ h2⟩
    · exact ⟨q, .inr h1, key _ _ _ _ _ h2⟩
  · rintro ⟨q, hp, hq⟩
    have key : ∃ (d d' : AccountId) (st st' : Bytes), hexOf d.val ++ st = q ++ (hexOf d'.val ++ st') := by
      have hz : hexOf (Arr.zero 32).val = List.replicate 64 48 := by decide +kernel
      obtain ⟨b, hb⟩ := hex_text ((q ++ List.replicate 64 48).take 64) (fun x hx => by
        rw [List.take_append] at hx
        rcases List.mem_append.mp hx with hx | hx
        · exact hq x hx
        · rw [(List.mem_replicate.mp (List.mem_of_mem_take hx)).2]
          exact ⟨0, by decide, by decide⟩) (by
        rw [List.length_take, List.length_append, List.length_replicate]; omega)
      have hl : b.length = 32 := by
        have := congrArg List.length hb
        rw [hexOf_length, List.length_take, List.length_append, List.length_replicate] at this
        omega
      refine ⟨⟨b, hl⟩, Arr.zero 32, (q ++ List.replicate 64 48).drop 64, [], ?_⟩
      rw [hz, List.append_nil]
      show hexOf b ++ _ = _
      rw [hb, List.take_append_drop]
    obtain ⟨d, d', st, st', h⟩ := key
    rcases hp with rfl | rfl
    · refine ⟨d, d', st, st', ?_⟩
      congr 1
      unfold claimPayload
      rw [List.append_assoc, h, List.append_assoc, List.append_assoc]
    · refine ⟨d', d, st', st, ?_⟩
      congr 1
      unfold claimPayload
      simp only [List.append_assoc, h]

/-- What follows a prefix, for a statement that can be required. -/
theorem extension_empty {d d' : AccountId} {st st' q : Bytes} (hs : st = [] ∨ ∃ k : StatementKind, st = k.statement)
    (hs' : st' = [] ∨ ∃ k : StatementKind, st' = k.statement) (h : hexOf d.val ++ st = q ++ (hexOf d'.val ++ st')) : q = [] ∧ st = st' := by
  have hlen := congrArg List.length h
  simp only [List.length_append, hexOf_length, d.property, d'.property] at hlen
  have h0 : st = st' → q = [] ∧ st = st' := fun e => ⟨List.eq_nil_of_length_eq_zero (by rw [e] at hlen; omega), e⟩
  have hsuf : st'.length ≤ st.length → st' <:+ st := fun hl =>
    List.suffix_of_suffix_length_le (l₃ := hexOf d.val ++ st) ⟨q ++ hexOf d'.val, by rw [h, List.append_assoc]⟩ (List.suffix_append _ _) hl
  have hend : ∀ k : StatementKind, st = k.statement → st' ≠ [] := by
    rintro k rfl rfl
    have h1 : (hexOf d.val ++ k.statement).getLast? = some 41 := by
      have : k.statement.getLast? = some 41 := by cases k <;> decide +kernel
      rw [List.getLast?_append, this]; rfl
    have h2 : ∃ x, (hexOf d'.val).getLast? = some x := by
      cases hx : (hexOf d'.val).getLast? with
      | some x => exact ⟨x, rfl⟩
      | none =>
        have := congrArg List.length (List.getLast?_eq_none_iff.mp hx)
        rw [hexOf_length, d'.property] at this
        simp at this
    obtain ⟨x, h2⟩ := h2
    rw [h, List.append_nil, List.getLast?_append, h2, Option.some_or] at h1
    obtain ⟨n, hn, e⟩ := hexOf_mem (List.mem_of_getLast? h2)
    cases h1
    revert e
    exact (by decide : ∀ n < 16, (41 : UInt8) ≠ hexDigit n) n hn
  have hle : st'.length ≤ st.length := by omega
  rcases hs with rfl | ⟨k, rfl⟩
  · exact h0 (List.eq_nil_of_length_eq_zero (Nat.le_zero.mp hle)).symm
  · rcases hs' with rfl | ⟨k', rfl⟩
    · exact absurd rfl (hend k rfl)
    · refine h0 ?_
      have := hsuf hle
      revert this
      cases k <;> cases k' <;> decide +kernel

/-- C163: if the pools of two networks accept two unsigned claims over the same message, the networks have the same prefix, and the
claims name the same account and make the same statement. So with different prefixes no signature for one network is over a
message for the other. -/
theorem C163_one_network (c c' : Cfg) (s s' : Chain) (k k' : ClaimsCall) (v v' : ValidTransaction)
    (h : validateUnsigned c s k = .ok v) (h' : validateUnsigned c' s' k' = .ok v')
    (hm : messageOf c.claimsPrefix k = messageOf c'.claimsPrefix k') : c.claimsPrefix = c'.claimsPrefix ∧ namedIn k = namedIn k' := by
  have form : ∀ (c : Cfg) (s : Chain) (k : ClaimsCall) (v : ValidTransaction), validateUnsigned c s k = .ok v →
      ∃ d st, messageOf c.claimsPrefix k = some (personalMessage (claimPayload c.claimsPrefix d st)) ∧ namedIn k = some (d, st) ∧
        (st = [] ∨ ∃ q : StatementKind, st = q.statement) := by
    intro c s k v h
    obtain ⟨g, _, _, ⟨d, x, rfl, _⟩ | ⟨d, x, q, rfl, _⟩⟩ := validateUnsigned_ok.mp h
    · exact ⟨d, [], rfl, rfl, .inl rfl⟩
    · exact ⟨d, q.statement, rfl, rfl, .inr ⟨q, rfl⟩⟩
  obtain ⟨d, st, m1, n1, f1⟩ := form c s k v h
  obtain ⟨d', st', m2, n2, f2⟩ := form c' s' k' v' h'
  rw [m1, m2, Option.some.injEq] at hm
  have hp := payload_of_message hm
  rw [n1, n2]
  rcases extends_of_payload hp with ⟨q, h1, h2⟩ | ⟨q, h1, h2⟩
  · obtain ⟨rfl, rfl⟩ := extension_empty f1 f2 h2
    rw [List.append_nil] at h1
    rw [List.nil_append, List.append_cancel_right_eq] at h2
    rw [Subtype.ext (hexOf_inj _ _ h2)]
    exact ⟨h1.symm, rfl⟩
  · obtain ⟨rfl, rfl⟩ := extension_empty f2 f1 h2
    rw [List.append_nil] at h1
    rw [List.nil_append, List.append_cancel_right_eq] at h2
    rw [Subtype.ext (hexOf_inj _ _ h2)]
    exact ⟨h1, rfl⟩

/-- A network with another prefix, which begins with that of the first one. -/
def otherNetwork : Cfg := { cfg with claimsPrefix := [80, 97, 121, 97] }

/-- The hypotheses of `C163_one_network` are met: the pools of both networks accept Carol's claim, and its message is another one on
each network. -/
example : (validateUnsigned cfg claimsStart (.claim carol anySig)).isOk = true ∧
    (validateUnsigned otherNetwork claimsStart (.claim carol anySig)).isOk = true ∧
    messageOf cfg.claimsPrefix (.claim carol anySig) ≠ messageOf otherNetwork.claimsPrefix (.claim carol anySig) := by decide +kernel

/-- Statements that are never required would make a difference: these two networks have messages in common. -/
example : ∃ d d' st st', personalMessage (claimPayload cfg.claimsPrefix d st) = personalMessage (claimPayload otherNetwork.claimsPrefix d' st') :=
  (C163_exact _ _).mpr ⟨[97], .inl rfl, by intro x hx; rw [List.mem_singleton.mp hx]; exact ⟨10, by decide, by decide⟩⟩

/-- With a colon in place of the letter they have none. -/
example : ¬ ∃ d d' st st', personalMessage (claimPayload [80, 97, 121] d st) = personalMessage (claimPayload [80, 97, 121, 58] d' st') := by
  rw [C163_exact]
  rintro ⟨q, h | h, hq⟩
  · have : q = [58] := (List.append_cancel_left (as := [80, 97, 121]) h).symm
    subst this
    obtain ⟨n, hn, e⟩ := hq 58 (by simp)
    revert e
    exact (by decide : ∀ n < 16, (58 : UInt8) ≠ hexDigit n) n hn
  · have := congrArg List.length h
    simp at this

/-- C163: on networks with the same prefix and the same cryptography, on the other hand, every signature is good on both. -/
theorem C163_same_prefix (c c' : Cfg) (hp : c'.claimsPrefix = c.claimsPrefix) (hk : c'.keccak = c.keccak) (hr : c'.ecRecover = c.ecRecover)
    (g : EthAddr) (sig : EthSig) (dest : AccountId) (st : Bytes) : SignedBy c g sig dest st ↔ SignedBy c' g sig dest st := by
  unfold SignedBy
  rw [hp, hk, hr]

/-- Two configurations that differ elsewhere only. -/
example : ({ cfg with ed := 7 } : Cfg).claimsPrefix = cfg.claimsPrefix ∧ SignedBy cfg ethA anySig carol [] :=
  ⟨rfl, (C51_recover cfg anySig carol [] ethA).mp (by decide +kernel)⟩

end Verif
