/-!
# Basic vocabulary

Bytes, fixed size byte arrays, little endian numbers, integer arithmetic of the Rust types, results with
errors, and finite-map updates. Nothing in this file models a particular function of /repo; it models the
parts of the Rust language and of `core` that the modelled functions use (each definition says which).
-/

namespace Verif

/-- Rust `Vec<u8>` / `&[u8]` (e.g. `PalletString`, primitives/common/src/lib.rs L34; external type). Simplified: an
immutable list. -/
abbrev Bytes := List UInt8

/-- Rust `[u8; n]` (e.g. primitives/teerex/src/lib.rs L387-390; external type). -/
abbrev Arr (n : Nat) := { l : Bytes // l.length = n }

/-- Rust `[0u8; n]` (e.g. teerex/sgx-verify/src/lib.rs L632). -/
def Arr.zero (n : Nat) : Arr n := ⟨List.replicate n 0, by simp⟩

/-- Rust `[b; n]` (e.g. teerex/sgx-verify/src/lib.rs L649). Only used to build concrete examples. -/
def Arr.fill (n : Nat) (b : UInt8) : Arr n := ⟨List.replicate n b, by simp⟩

/-- Rust `<[u8; n]>::try_from(slice)` (external, e.g. teerex/sgx-verify/src/lib.rs L878, L892): fails iff the length
differs. -/
def Arr.ofBytes? (n : Nat) (l : Bytes) : Option (Arr n) :=
  if h : l.length = n then some ⟨l, h⟩ else none

/-- 32-byte values: `AccountId32`, `H256`, `[u8; 32]` (primitives/common/src/lib.rs L39-40,
primitives/teerex/src/lib.rs L387-388). -/
abbrev B32 := Arr 32
/-- `AccountId` of the integritee runtimes (`AccountId32`); the pallets themselves are generic in it but the
bridge pallet only works for account ids which decode from 32 bytes. -/
abbrev AccountId := B32
/-- `sp_core::H256` (external, e.g. primitives/common/src/lib.rs L39-40). -/
abbrev H256 := B32

/-- `slice.get(off..off+len)` (external, e.g. teerex/sgx-verify/src/lib.rs L877, L891, L907): `none` if out of bounds.
-/
def slice? (l : Bytes) (off len : Nat) : Option Bytes :=
  if off + len ≤ l.length then some ((l.drop off).take len) else none

/-- Specification-side slice, no code modelled (meaningful only when in bounds). -/
def sub (l : Bytes) (off len : Nat) : Bytes := (l.drop off).take len

/-- `uN::from_le_bytes` (external, e.g. primitives/teerex/src/lib.rs L314, teerex/sgx-verify/src/lib.rs L179). -/
def leNat : Bytes → Nat
  | [] => 0
  | b :: bs => b.toNat + 256 * leNat bs

/-- `uN::to_le_bytes` for an `n`-byte integer (external: the SCALE encoding of all integers in /repo). -/
def toLE : Nat → Nat → Bytes
  | 0, _ => []
  | n + 1, v => UInt8.ofNat (v % 256) :: toLE n (v / 256)

/-- `uN::from_be_bytes` (external, teerex/sgx-verify/src/lib.rs L913). -/
def beNat (l : Bytes) : Nat := leNat l.reverse

/-! ### Integer arithmetic with an explicit maximum of the type -/

/-- `a.saturating_add(b)` for a type with maximum `max` (external, e.g. teerdays/src/lib.rs L210). -/
def satAdd (max a b : Nat) : Nat := min (a + b) max
/-- `a.saturating_mul(b)` for a type with maximum `max` (external, e.g. primitives/teerdays/src/lib.rs L22). -/
def satMul (max a b : Nat) : Nat := min (a * b) max
-- `a.saturating_sub(b)` on an unsigned type is the truncated subtraction of `Nat`.

/-! ### Finite map update -/

/-- `StorageMap::insert` / `remove` / `mutate` (external, frame_support; e.g. teerdays/src/lib.rs L156-166) on the
functional view of a storage map. -/
def upd {K V : Type} [DecidableEq K] (m : K → V) (k : K) (v : V) : K → V :=
  fun x => if x = k then v else m x

@[simp] theorem upd_same {K V : Type} [DecidableEq K] (m : K → V) (k : K) (v : V) : upd m k v k = v := by
  simp [upd]

@[simp] theorem upd_ne {K V : Type} [DecidableEq K] (m : K → V) {k x : K} (v : V) (h : x ≠ k) :
    upd m k v x = m x := by simp [upd, h]

theorem upd_apply {K V : Type} [DecidableEq K] (m : K → V) (k x : K) (v : V) :
    upd m k v x = if x = k then v else m x := rfl

/-! ### Results -/

/-- `ensure!(p, e)` (external, frame_support; e.g. teerdays/src/lib.rs L179-180). -/
def ensure {ε : Type} (p : Bool) (e : ε) : Except ε Unit := if p then .ok () else .error e

/-- `Option::ok_or(e)` (external; e.g. claims/src/lib.rs L224). -/
def okOr {ε α : Type} (o : Option α) (e : ε) : Except ε α :=
  match o with
  | some a => .ok a
  | none => .error e

/-- `Result::map_err` (external; e.g. teerex/sgx-verify/src/lib.rs L491). -/
def mapErr {ε ε' α : Type} (f : ε → ε') (r : Except ε α) : Except ε' α :=
  match r with
  | .ok a => .ok a
  | .error e => .error (f e)

@[simp] theorem ensure_eq_ok {ε : Type} {p : Bool} {e : ε} {u : Unit} : ensure p e = .ok u ↔ p = true := by
  unfold ensure; split <;> simp_all

@[simp] theorem ensure_eq_error {ε : Type} {p : Bool} {e e' : ε} :
    ensure p e = .error e' ↔ p = false ∧ e = e' := by
  unfold ensure; split <;> simp_all

@[simp] theorem okOr_eq_ok {ε α : Type} {o : Option α} {e : ε} {a : α} : okOr o e = .ok a ↔ o = some a := by
  cases o <;> simp [okOr]

@[simp] theorem okOr_eq_error {ε α : Type} {o : Option α} {e e' : ε} :
    okOr o e = .error e' ↔ o = none ∧ e = e' := by
  cases o <;> simp [okOr]

@[simp] theorem mapErr_eq_ok {ε ε' α : Type} {f : ε → ε'} {r : Except ε α} {a : α} :
    mapErr f r = .ok a ↔ r = .ok a := by
  cases r <;> simp [mapErr]

@[simp] theorem mapErr_eq_error {ε ε' α : Type} {f : ε → ε'} {r : Except ε α} {e' : ε'} :
    mapErr f r = .error e' ↔ ∃ e, r = .error e ∧ f e = e' := by
  cases r <;> simp [mapErr]

theorem bind_eq_ok {ε α β : Type} {x : Except ε α} {f : α → Except ε β} {b : β} :
    (x >>= f) = .ok b ↔ ∃ a, x = .ok a ∧ f a = .ok b := by
  cases x <;> simp [bind, Except.bind]

theorem bind_eq_error {ε α β : Type} {x : Except ε α} {f : α → Except ε β} {e : ε} :
    (x >>= f) = .error e ↔ x = .error e ∨ ∃ a, x = .ok a ∧ f a = .error e := by
  cases x <;> simp [bind, Except.bind]

@[simp] theorem pure_eq_ok {ε α : Type} {a b : α} : (pure a : Except ε α) = .ok b ↔ a = b := by
  simp [pure, Except.pure]

@[simp] theorem pure_ne_error {ε α : Type} {a : α} {e : ε} : (pure a : Except ε α) ≠ .error e := by
  simp [pure, Except.pure]

@[simp] theorem throw_ne_ok {ε α : Type} {e : ε} {a : α} : (throw e : Except ε α) ≠ .ok a := by
  simp [throw, throwThe, MonadExceptOf.throw]

@[simp] theorem throw_eq_error {ε α : Type} {e e' : ε} : (throw e : Except ε α) = .error e' ↔ e = e' := by
  simp [throw, throwThe, MonadExceptOf.throw]

/-! ### Little endian facts -/

theorem leNat_lt (l : Bytes) : leNat l < 256 ^ l.length := by
  induction l with
  | nil => simp [leNat]
  | cons b bs ih =>
    simp only [leNat, List.length_cons, Nat.pow_succ]
    have := b.toNat_lt
    omega

@[simp] theorem toLE_length (n v : Nat) : (toLE n v).length = n := by
  induction n generalizing v with
  | zero => rfl
  | succ n ih => simp [toLE, ih]

theorem leNat_toLE (n v : Nat) (h : v < 256 ^ n) : leNat (toLE n v) = v := by
  induction n generalizing v with
  | zero => simp at h; simp [toLE, leNat, h]
  | succ n ih =>
    simp only [toLE, leNat]
    have h1 : v / 256 < 256 ^ n := by
      rw [Nat.pow_succ] at h
      exact Nat.div_lt_of_lt_mul (by rw [Nat.mul_comm]; exact h)
    rw [ih _ h1]
    have h2 : (UInt8.ofNat (v % 256)).toNat = v % 256 := by
      simp [UInt8.toNat_ofNat']
    rw [h2]
    omega

theorem toLE_leNat (l : Bytes) : toLE l.length (leNat l) = l := by
  induction l with
  | nil => rfl
  | cons b bs ih =>
    simp only [leNat, List.length_cons, toLE]
    have hb := b.toNat_lt
    have h1 : (b.toNat + 256 * leNat bs) % 256 = b.toNat := by omega
    have h2 : (b.toNat + 256 * leNat bs) / 256 = leNat bs := by omega
    rw [h1, h2, ih]
    congr 1
    simp

theorem leNat_inj {l l' : Bytes} (hl : l.length = l'.length) (h : leNat l = leNat l') : l = l' := by
  rw [← toLE_leNat l, ← toLE_leNat l', hl, h]

end Verif
