import Verif.Props.Teerdays
import Verif.Props.Frame

/-!
# C147: no token counts in two bonds

What all accounts together have bonded, and the tokentime they collect with it, is limited by the money there is.
-/

namespace Verif

open Verif.Demo

/-- Specification: what the listed accounts have bonded together. -/
def bondedTotal (s : Chain) (l : List AccountId) : Nat := (l.map (bondValue s)).sum

/-- Specification: what the listed accounts have bonded or are still unbonding, together. -/
def engagedTotal (s : Chain) (l : List AccountId) : Nat := (l.map fun a => bondValue s a + pendingAmount s a).sum

/-- Specification: the tokentime of the listed accounts together. -/
def tokentimeTotal (c : Cfg) (s : Chain) (l : List AccountId) : Nat := (l.map (tokentimeNow c s)).sum

/-- Specification: sum over a history of total issuance × elapsed time. -/
def issuanceIntegral (c : Cfg) : Chain → List Op → Nat
  | _, [] => 0
  | s, .newBlock dt :: ops => s.bal.issuance * dt + issuanceIntegral c (step c s (.newBlock dt)) ops
  | s, op :: ops => issuanceIntegral c (step c s op) ops

/-- C147, full claim: whatever users do, all bonds and unbonding amounts together never exceed the total issuance,
and the tokentime of all accounts never exceeds total issuance × time. -/
def C147_Full : Prop :=
  ∀ (c : Cfg) (s0 : Chain) (ops : List Op) (l : List AccountId), Covered s0 → l.Nodup → (∀ a, TdFresh s0 a) →
    (∀ a, ∀ op ∈ ops, ¬ IsSlash a op) →
    engagedTotal (run c s0 ops) l ≤ (run c s0 ops).bal.issuance ∧
    tokentimeTotal c (run c s0 ops) l ≤ issuanceIntegral c s0 ops

/-- Alice frees their bond by re-bonding while an unlock is pending, sends the tokens to Bob, who bonds them again. -/
def twiceHistory : List Op :=
  rebondHistory ++ [.ext (.signed alice) (.balTransfer bob 1000), .ext (.signed bob) (.bond 1500), .newBlock 10000]

theorem tdFresh_start (a : AccountId) : TdFresh start a := ⟨rfl, rfl, rfl, rfl⟩

/-- After that history 2500 are bonded although only 1500 exist, and they collect more tokentime than all tokens
could since the start of the chain. -/
theorem C147_refuted : ¬ C147_Full := by
  intro h
  have := (h cfg start twiceHistory [alice, bob] start_balanced.covered (by decide) tdFresh_start
    (by simp [twiceHistory, rebondHistory, IsSlash])).1
  revert this
  decide +kernel

example : bondedTotal (run cfg start twiceHistory) [alice, bob] = 2500 ∧
    (run cfg start twiceHistory).bal.issuance = 1500 ∧
    issuanceIntegral cfg start twiceHistory < tokentimeTotal cfg (run cfg start twiceHistory) [alice, bob] := by
  decide +kernel

theorem sum_map_le {f g : AccountId → Nat} {l : List AccountId} (h : ∀ a ∈ l, f a ≤ g a) :
    (l.map f).sum ≤ (l.map g).sum := by
  induction l with
  | nil => simp
  | cons a l ih =>
    have := h a (by simp)
    have := ih fun x hx => h x (by simp [hx])
    simp only [List.map_cons, List.sum_cons]
    omega

/-- C147, partial: for accounts that are not slashed and do not bond while an unlock is pending, what they have
bonded or are unbonding together is covered by the total issuance. Missing: the re-bonding histories (claim false). The
hypotheses are met by the example with `twoBonds` below. -/
theorem C147_bonds_partial (c : Cfg) (s0 : Chain) (ops : List Op) (l : List AccountId) (h0 : Covered s0)
    (hl : l.Nodup) (hf : ∀ a ∈ l, TdFresh s0 a) (hS : ∀ a ∈ l, ∀ op ∈ ops, ¬ IsSlash a op)
    (hN : ∀ a ∈ l, NoRebond c a s0 ops) :
    engagedTotal (run c s0 ops) l ≤ (run c s0 ops).bal.issuance := by
  refine Nat.le_trans (sum_map_le fun a ha => ?_) (C69_covered c s0 ops h0 l hl)
  have := C07_lock_le_free_partial c s0 a ops (hf a ha) (hS a ha) (hN a ha)
  omega

theorem noRebond_prefix {c : Cfg} {a : AccountId} {s : Chain} {pre post : List Op}
    (h : NoRebond c a s (pre ++ post)) : NoRebond c a s pre := by
  induction pre generalizing s with
  | nil => trivial
  | cons op pre ih => exact ⟨h.1, ih h.2⟩

theorem sum_map_add (f g : AccountId → Nat) (l : List AccountId) :
    (l.map fun a => f a + g a).sum = (l.map f).sum + (l.map g).sum := by
  induction l with
  | nil => rfl
  | cons a l ih => simp only [List.map_cons, List.sum_cons, ih]; omega

theorem sum_map_mul (f : AccountId → Nat) (n : Nat) (l : List AccountId) :
    (l.map fun a => f a * n).sum = (l.map f).sum * n := by
  induction l with
  | nil => simp
  | cons a l ih => simp only [List.map_cons, List.sum_cons, ih, Nat.add_mul]

theorem sum_map_zero {f : AccountId → Nat} (l : List AccountId) (h : ∀ a, f a = 0) : (l.map f).sum = 0 := by
  induction l with
  | nil => rfl
  | cons a l ih => simp only [List.map_cons, List.sum_cons, ih, h a]

/-- The integrals of the bonds add up to at most the integral of the issuance, if at every moment the bonds add
up to at most the issuance. -/
theorem bondIntegral_total {c : Cfg} {l : List AccountId} {ops : List Op} {s : Chain}
    (h : ∀ pre post, ops = pre ++ post → bondedTotal (run c s pre) l ≤ (run c s pre).bal.issuance) :
    (l.map fun a => bondIntegral c a s ops).sum ≤ issuanceIntegral c s ops := by
  induction ops generalizing s with
  | nil => exact Nat.le_of_eq (sum_map_zero l fun _ => rfl)
  | cons op ops ih =>
    have h1 := ih (s := step c s op) fun pre post e => h (op :: pre) post (by rw [e]; rfl)
    have hsplit : (l.map fun a => bondIntegral c a s (op :: ops)).sum =
        (l.map fun a => bondTimeSlice a s op).sum + (l.map fun a => bondIntegral c a (step c s op) ops).sum :=
      sum_map_add _ _ l
    rw [hsplit]
    cases op with
    | newBlock dt =>
      have hb : (l.map fun a => bondTimeSlice a s (.newBlock dt)).sum = bondedTotal s l * dt :=
        sum_map_mul (bondValue s) dt l
      have hle : bondedTotal s l * dt ≤ s.bal.issuance * dt :=
        Nat.mul_le_mul_right dt (h [] (.newBlock dt :: ops) rfl)
      simp only [hb, issuanceIntegral]
      omega
    | _ =>
      simp only [issuanceIntegral]
      refine Nat.le_trans (Nat.le_of_eq ?_) h1
      rw [Nat.add_eq_right]
      exact sum_map_zero l fun a => rfl

/-- C147, partial: and the tokentime of these accounts together never exceeds the sum over the history of total
issuance × elapsed time. Missing: the re-bonding histories (claim false). -/
theorem C147_tokentime_partial (c : Cfg) (s0 : Chain) (ops : List Op) (l : List AccountId) (h0 : Covered s0)
    (hl : l.Nodup) (hf : ∀ a ∈ l, TdFresh s0 a) (hS : ∀ a ∈ l, ∀ op ∈ ops, ¬ IsSlash a op)
    (hN : ∀ a ∈ l, NoRebond c a s0 ops) :
    tokentimeTotal c (run c s0 ops) l ≤ issuanceIntegral c s0 ops := by
  refine Nat.le_trans (sum_map_le fun a ha => C04_tokentime_le_integral c s0 a ops (hf a ha).1)
    (bondIntegral_total fun pre post e => ?_)
  have := C147_bonds_partial c s0 pre l h0 hl hf (fun a ha op ho => hS a ha op (by simp [e, ho]))
    fun a ha => noRebond_prefix (post := post) (e ▸ hN a ha)
  exact Nat.le_trans (sum_map_le fun a _ => Nat.le_add_right _ _) this

/-- Two accounts that bond, top up, unbond and withdraw: 300 + 500 of 1500 tokens stay bonded. -/
def twoBonds : List Op := .ext (.signed bob) (.bond 500) :: goodHistory

example : Covered start ∧ [alice, bob].Nodup ∧ (∀ a ∈ [alice, bob], TdFresh start a) ∧
    (∀ a ∈ [alice, bob], ∀ op ∈ twoBonds, ¬ IsSlash a op) ∧
    (∀ a ∈ [alice, bob], NoRebond cfg a start twoBonds) ∧
    engagedTotal (run cfg start twoBonds) [alice, bob] = 800 ∧
    tokentimeTotal cfg (run cfg start twoBonds) [alice, bob] ≠ 0 :=
  ⟨start_balanced.covered, by decide, fun a _ => tdFresh_start a, by decide +kernel, by decide +kernel, by decide +kernel,
    by decide +kernel⟩

end Verif
