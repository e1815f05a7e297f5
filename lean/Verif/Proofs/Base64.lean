import Verif.Model.Base64
import Verif.Spec.Base64

/-!
# The described Base64 decoder inverts the encoding
-/

namespace Verif

namespace Base64

open B64

theorem value_symbol : ∀ n : Fin 64, value (symbol n.val) = some n.val := by decide +kernel

theorem symbol_value' : ∀ i : Fin 256, ∀ v ∈ value (UInt8.ofNat i.val), v < 64 ∧ symbol v = UInt8.ofNat i.val := by
  decide +kernel

theorem value_iff {c : UInt8} {v : Nat} : value c = some v ↔ v < 64 ∧ symbol v = c := by
  constructor
  · intro h
    have := symbol_value' ⟨c.toNat, c.toNat_lt⟩ v
    simp only [UInt8.ofNat_toNat] at this
    exact this h
  · rintro ⟨h, rfl⟩
    exact value_symbol ⟨v, h⟩

theorem byte_ofNat {n : Nat} (h : n < 256) : (UInt8.ofNat n).toNat = n := by
  simp [Nat.mod_eq_of_lt h]

theorem decode_symbols (b : Bytes) : decodeSymbols (symbols b) = some b := by
  fun_induction symbols b with
  | case1 x y z r n ih =>
    have hx := x.toNat_lt; have hy := y.toNat_lt; have hz := z.toNat_lt
    have h1 : value (symbol (n / 262144)) = some (n / 262144) := value_iff.mpr ⟨by omega, rfl⟩
    have h2 : value (symbol (n / 4096 % 64)) = some (n / 4096 % 64) := value_iff.mpr ⟨by omega, rfl⟩
    have h3 : value (symbol (n / 64 % 64)) = some (n / 64 % 64) := value_iff.mpr ⟨by omega, rfl⟩
    have h4 : value (symbol (n % 64)) = some (n % 64) := value_iff.mpr ⟨by omega, rfl⟩
    simp only [decodeSymbols, h1, h2, h3, h4, ih, Option.bind_eq_bind, Option.bind_some]
    congr 2
    · apply UInt8.toNat_inj.mp; rw [byte_ofNat] <;> omega
    · congr 1
      · apply UInt8.toNat_inj.mp; rw [byte_ofNat] <;> omega
      · congr 1
        apply UInt8.toNat_inj.mp; rw [byte_ofNat] <;> omega
  | case2 x y n =>
    have hx := x.toNat_lt; have hy := y.toNat_lt
    have h1 : value (symbol (n / 4096)) = some (n / 4096) := value_iff.mpr ⟨by omega, rfl⟩
    have h2 : value (symbol (n / 64 % 64)) = some (n / 64 % 64) := value_iff.mpr ⟨by omega, rfl⟩
    have h3 : value (symbol (n % 64)) = some (n % 64) := value_iff.mpr ⟨by omega, rfl⟩
    simp only [decodeSymbols, h1, h2, h3, Option.bind_eq_bind, Option.bind_some]
    rw [if_pos (by omega)]
    congr 2
    · apply UInt8.toNat_inj.mp; rw [byte_ofNat] <;> omega
    · congr 1
      apply UInt8.toNat_inj.mp; rw [byte_ofNat] <;> omega
  | case3 x n =>
    have hx := x.toNat_lt
    have h1 : value (symbol (n / 64)) = some (n / 64) := value_iff.mpr ⟨by omega, rfl⟩
    have h2 : value (symbol (n % 64)) = some (n % 64) := value_iff.mpr ⟨by omega, rfl⟩
    simp only [decodeSymbols, h1, h2, Option.bind_eq_bind, Option.bind_some]
    rw [if_pos (by omega)]
    congr 2
    apply UInt8.toNat_inj.mp; rw [byte_ofNat] <;> omega
  | case4 => rfl

theorem symbols_decode {s b : Bytes} (h : decodeSymbols s = some b) : s = symbols b := by
  fun_induction decodeSymbols s generalizing b with
  | case1 a' b' c' d' r ih =>
    simp only [Option.bind_eq_bind, Option.bind_eq_some_iff] at h
    obtain ⟨a, ha, b1, hb, c, hc, d, hd, l, hl, h⟩ := h
    injection h with h
    subst h
    rw [ih hl]
    obtain ⟨ha, rfl⟩ := value_iff.mp ha
    obtain ⟨hb, rfl⟩ := value_iff.mp hb
    obtain ⟨hc, rfl⟩ := value_iff.mp hc
    obtain ⟨hd, rfl⟩ := value_iff.mp hd
    simp only [symbols]
    rw [byte_ofNat (n := a * 4 + b1 / 16) (by omega), byte_ofNat (n := b1 % 16 * 16 + c / 4) (by omega),
      byte_ofNat (n := c % 4 * 64 + d) (by omega)]
    have e1 : ((a * 4 + b1 / 16) * 65536 + (b1 % 16 * 16 + c / 4) * 256 + (c % 4 * 64 + d)) / 262144 = a := by omega
    have e2 : ((a * 4 + b1 / 16) * 65536 + (b1 % 16 * 16 + c / 4) * 256 + (c % 4 * 64 + d)) / 4096 % 64 = b1 := by omega
    have e3 : ((a * 4 + b1 / 16) * 65536 + (b1 % 16 * 16 + c / 4) * 256 + (c % 4 * 64 + d)) / 64 % 64 = c := by omega
    have e4 : ((a * 4 + b1 / 16) * 65536 + (b1 % 16 * 16 + c / 4) * 256 + (c % 4 * 64 + d)) % 64 = d := by omega
    rw [e1, e2, e3, e4]
  | case2 a' b' c' =>
    simp only [Option.bind_eq_bind, Option.bind_eq_some_iff] at h
    obtain ⟨a, ha, b1, hb, c, hc, h⟩ := h
    split at h
    · rename_i h0
      injection h with h
      subst h
      obtain ⟨ha, rfl⟩ := value_iff.mp ha
      obtain ⟨hb, rfl⟩ := value_iff.mp hb
      obtain ⟨hc, rfl⟩ := value_iff.mp hc
      simp only [symbols]
      rw [byte_ofNat (n := a * 4 + b1 / 16) (by omega), byte_ofNat (n := b1 % 16 * 16 + c / 4) (by omega)]
      have e1 : ((a * 4 + b1 / 16) * 256 + (b1 % 16 * 16 + c / 4)) * 4 / 4096 = a := by omega
      have e2 : ((a * 4 + b1 / 16) * 256 + (b1 % 16 * 16 + c / 4)) * 4 / 64 % 64 = b1 := by omega
      have e3 : ((a * 4 + b1 / 16) * 256 + (b1 % 16 * 16 + c / 4)) * 4 % 64 = c := by omega
      rw [e1, e2, e3]
    · exact absurd h (by simp)
  | case3 a' b' =>
    simp only [Option.bind_eq_bind, Option.bind_eq_some_iff] at h
    obtain ⟨a, ha, b1, hb, h⟩ := h
    split at h
    · rename_i h0
      injection h with h
      subst h
      obtain ⟨ha, rfl⟩ := value_iff.mp ha
      obtain ⟨hb, rfl⟩ := value_iff.mp hb
      simp only [symbols]
      rw [byte_ofNat (n := a * 4 + b1 / 16) (by omega)]
      have e1 : (a * 4 + b1 / 16) * 16 / 64 = a := by omega
      have e2 : (a * 4 + b1 / 16) * 16 % 64 = b1 := by omega
      rw [e1, e2]
    · exact absurd h (by simp)
  | case4 => exact absurd h (by simp)
  | case5 => injection h with h; subst h; rfl

theorem symbol_ne : ∀ n, n < 64 → symbol n ≠ 61 ∧ symbol n ≠ 124 ∧ symbol n ≠ 45 ∧ symbol n ≠ 10 ∧ symbol n < 128 := by
  decide +kernel

/-- Every character of a text without padding is a symbol. -/
theorem mem_symbols {b : Bytes} {c : UInt8} (h : c ∈ symbols b) : ∃ n, n < 64 ∧ c = symbol n := by
  fun_induction symbols b with
  | case1 x y z r n ih =>
    have hx := x.toNat_lt; have hy := y.toNat_lt; have hz := z.toNat_lt
    simp only [List.mem_cons] at h
    rcases h with rfl | rfl | rfl | rfl | h
    · exact ⟨_, by omega, rfl⟩
    · exact ⟨_, by omega, rfl⟩
    · exact ⟨_, by omega, rfl⟩
    · exact ⟨_, by omega, rfl⟩
    · exact ih h
  | case2 x y n =>
    have hx := x.toNat_lt; have hy := y.toNat_lt
    simp only [List.mem_cons, List.not_mem_nil, or_false] at h
    rcases h with rfl | rfl | rfl
    · exact ⟨_, by omega, rfl⟩
    · exact ⟨_, by omega, rfl⟩
    · exact ⟨_, by omega, rfl⟩
  | case3 x n =>
    have hx := x.toNat_lt
    simp only [List.mem_cons, List.not_mem_nil, or_false] at h
    rcases h with rfl | rfl
    · exact ⟨_, by omega, rfl⟩
    · exact ⟨_, by omega, rfl⟩
  | case4 => simp at h

theorem length_symbols (b : Bytes) :
    (symbols b).length % 4 = if b.length % 3 = 1 then 2 else if b.length % 3 = 2 then 3 else 0 := by
  fun_induction symbols b with
  | case1 x y z r n ih =>
    simp only [List.length_cons]
    have : (r.length + 1 + 1 + 1) % 3 = r.length % 3 := by omega
    simp only [this]
    rw [← ih]; omega
  | case2 => rfl
  | case3 => rfl
  | case4 => rfl

theorem takeWhile_pad {s : Bytes} (h : ∀ c ∈ s, c ≠ 61) (p : Nat) :
    (s ++ List.replicate p 61).takeWhile (· ≠ 61) = s ∧ (s ++ List.replicate p 61).dropWhile (· ≠ 61) = List.replicate p 61 := by
  induction s with
  | nil => cases p <;> simp [List.replicate_succ]
  | cons a s ih =>
    have ha : a ≠ 61 := h a (by simp)
    have ih := ih fun c hc => h c (by simp [hc])
    simp [ha] at ih ⊢
    exact ih

/-- The described decoder reads exactly the texts. -/
theorem decode_iff (t b : Bytes) : decode t = some b ↔ IsText t b := by
  have hne : ∀ b, ∀ c ∈ symbols b, c ≠ 61 := fun b c hc => by
    obtain ⟨n, hn, rfl⟩ := mem_symbols hc
    exact (symbol_ne n hn).1
  constructor
  · intro h
    unfold decode at h
    simp only at h
    split at h
    · rename_i hc
      obtain ⟨_, hp, hi⟩ := hc
      have hs := symbols_decode h
      have hpe : t.dropWhile (· ≠ 61) = List.replicate (t.dropWhile (· ≠ 61)).length 61 := List.eq_replicate_iff.mpr ⟨rfl, hp⟩
      refine ⟨(t.dropWhile (· ≠ 61)).length, ?_, ?_⟩
      · rw [hs] at hi
        have hl := length_symbols b
        generalize (t.dropWhile (· ≠ 61)).length = p at hi
        unfold padding
        have := hi 0; have := hi 1; have := hi 2
        split
        · rename_i h1; rw [if_pos h1] at hl; omega
        · rename_i h1; rw [if_neg h1] at hl
          split
          · rename_i h2; rw [if_pos h2] at hl; omega
          · rename_i h2; rw [if_neg h2] at hl; omega
      · rw [← hs, ← hpe, List.takeWhile_append_dropWhile]
    · exact absurd h (by simp)
  · rintro ⟨p, hp, rfl⟩
    unfold decode
    simp only
    obtain ⟨h1, h2⟩ := takeWhile_pad (hne b) p
    rw [h1, h2, if_pos, decode_symbols]
    have hl := length_symbols b
    unfold padding at hp
    refine ⟨?_, fun c hc => List.eq_of_mem_replicate hc, ?_⟩
    · rw [List.length_append, List.length_replicate]
      split at hp
      · rename_i h1; rw [if_pos h1] at hl; omega
      · rename_i h1; rw [if_neg h1] at hl
        split at hp
        · rename_i h2; rw [if_pos h2] at hl; omega
        · rename_i h2; rw [if_neg h2] at hl; omega
    · intro i hi
      rw [List.length_replicate] at hi
      split at hp
      · rename_i h1; rw [if_pos h1] at hl; omega
      · rename_i h1; rw [if_neg h1] at hl
        split at hp
        · rename_i h2; rw [if_pos h2] at hl; omega
        · omega

end Base64

end Verif
