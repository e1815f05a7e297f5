import Verif.Proofs.Scale
import Verif.Spec.Scale
import Verif.Spec.Demo

/-!
# C116 to C118: encodings of the storage and of the calls
-/

namespace Verif
open Scale

/-! ### Layouts -/

theorem layout_number (n v : Nat) : toLE n v = Layout.number n v := by
  induction n generalizing v with
  | zero => rfl
  | succ n ih =>
    rw [toLE, ih, Layout.number, Layout.number, List.range_succ_eq_map]
    simp only [List.map_cons, List.map_map, Nat.pow_zero, Nat.div_one]
    congr 1
    · apply UInt8.toNat_inj.1
      simp [UInt8.toNat_ofNat']
    · refine List.map_congr_left fun i _ => ?_
      simp only [Function.comp]
      rw [Nat.pow_succ, Nat.mul_comm, Nat.div_div_eq_div_mul]

theorem layout_le (n v : Nat) : (le n).enc v = Layout.number n v := layout_number n v

theorem number_one (v : Nat) (h : v < 256) : Layout.number 1 v = [UInt8.ofNat v] := by
  simp [Layout.number]

theorem layout_short (v : Nat) (h : v < 256 ^ 67) : compactEnc v = Layout.short v := by
  have e1 : 2 ^ 6 = 64 := rfl
  have e2 : 2 ^ 14 = 16384 := rfl
  have e3 : 2 ^ 30 = 1073741824 := rfl
  simp only [compactEnc, Layout.short, e1, e2, e3, layout_number, Nat.mul_comm v 4]
  split
  · rw [number_one _ (by omega)]
  · split
    · rfl
    · split
      · rfl
      · rename_i h30
        obtain ⟨_, hb, hl⟩ := log2_bytes v (by omega)
        have : Nat.log2 v / 8 < 67 := (Nat.pow_lt_pow_iff_right (a := 256) (by decide)).1 (Nat.lt_of_le_of_lt hl h)
        rw [number_one _ (by omega), show (Nat.log2 v / 8 + 1 - 4) * 4 + 3 = 4 * (Nat.log2 v / 8 - 3) + 3 by omega]
        rfl

theorem pow_bytes (n : Nat) : 256 ^ n = 2 ^ (8 * n) := by rw [Nat.pow_mul]

theorem lt_67 {v n : Nat} (hn : n ≤ 67) (h : v < 2 ^ (8 * n)) : v < 256 ^ 67 := by
  rw [← pow_bytes] at h
  exact Nat.lt_of_lt_of_le h (Nat.pow_le_pow_right (by decide) hn)

theorem len_67 {v : Nat} (h : v < 2 ^ 32) : v < 256 ^ 67 := lt_67 (n := 4) (by decide) h

theorem layout_list {α : Type} (a : Codec α) (f : α → Bytes) (l : List α) (h : Fits.vector l)
    (hf : ∀ x ∈ l, a.enc x = f x) : (vec a).enc l = Layout.list f l := by
  simp only [vec, Layout.list, layout_short _ (len_67 h), List.flatMap_def]
  rw [List.map_congr_left hf]

theorem flatMap_byte (b : Bytes) : b.flatMap byte.enc = b := by
  induction b with
  | nil => rfl
  | cons x b ih => rw [List.flatMap_cons, ih]; rfl

theorem layout_text (b : Bytes) (h : Fits.vector b) : bytes.enc b = Layout.text b := by
  simp only [bytes, vec, Layout.text, layout_short _ (len_67 h), flatMap_byte]

theorem layout_option {α : Type} (a : Codec α) (f : α → Bytes) (o : Option α) (hf : ∀ x, o = some x → a.enc x = f x) :
    (opt a).enc o = Layout.option f o := by
  cases o with
  | none => rfl
  | some x => simp only [opt, Layout.option, hf x rfl]

theorem layout_flag (b : Bool) : Scale.bool.enc b = Layout.flag b := by cases b <;> rfl

theorem layout_bytesOption (o : Option Bytes) (h : ∀ u, o = some u → Fits.vector u) :
    (opt bytes).enc o = Layout.option Layout.text o :=
  layout_option _ _ _ fun x hx => layout_text x (h x hx)

theorem layout_method (m : SgxAttestationMethod) : attestationMethod.enc m = Layout.method m := by
  cases m with
  | skip p => cases p <;> rfl
  | ias => rfl
  | dcap p => cases p <;> rfl

theorem layout_status (m : SgxStatus) : sgxStatus.enc m = Layout.status m := by cases m <;> rfl

theorem layout_tcbStatus (m : TcbStatus) : Scale.tcbStatus.enc m = Layout.tcbStatus m := by cases m <;> rfl

theorem layout_buildMode (m : SgxBuildMode) : Scale.buildMode.enc m = Layout.buildMode m := by cases m <;> rfl

theorem layout_statement (m : StatementKind) : statementKind.enc m = Layout.statement m := by cases m <;> rfl

theorem layout_address (a : EnclaveInstanceAddress) (h : Fits.address a) :
    instanceAddress.enc a = Layout.address a := by
  obtain ⟨f, g, s⟩ := a
  cases s with
  | «opaque» b =>
    have hb : Fits.vector b := by
      have := h b rfl
      simp only [Fits.vector]; omega
    have e : anySigner.enc (.opaque b) = 0 :: bytes.enc b := rfl
    simp only [instanceAddress, iso, pair, Layout.address, Layout.signer, arr, e, layout_text b hb,
      List.append_assoc]
  | known s =>
    have e : ∀ s : MultiSigner, anySigner.enc (.known s) = Layout.signer (.known s) := fun s => by cases s <;> rfl
    simp only [instanceAddress, iso, pair, Layout.address, arr, e, List.append_assoc]

theorem layout_shardConfig (c : ShardConfig) (h : Fits.shardConfig c) :
    Scale.shardConfig.enc c = Layout.shardConfig c := by
  have h1 := layout_option (le 4) (Layout.number 4) c.maxInstances fun x _ => layout_number 4 x
  have h2 := layout_option (vec (arr 32)) (Layout.list fun a : AccountId => a.val) c.authorities
    fun x hx => layout_list (arr 32) (fun a => a.val) x (h.2 x hx) fun _ _ => rfl
  simp only [Scale.shardConfig, iso, pair, Layout.shardConfig, h1, h2, layout_flag, List.append_assoc]
  rfl

theorem layout_vesting (w : Widths) (v : VestingInfo) : (vestingInfo w).enc v = Layout.vesting w v := by
  simp only [vestingInfo, iso, pair, le, Layout.vesting, layout_number, List.append_assoc]

theorem layout_confirmation (c : Confirmation) : Scale.confirmation.enc c = Layout.confirmation c := by
  simp only [Scale.confirmation, iso, pair, le, arr, Layout.confirmation, layout_number]

/-! ### Ranges -/

theorem fits_number (n v : Nat) : (le n).fits v ↔ Fits.number n v := by
  simp only [le, Fits.number, pow_bytes]

theorem fits_text (b : Bytes) : bytes.fits b ↔ Fits.vector b := by
  simp [bytes, vec, byte, Fits.vector]

theorem fits_option {α : Type} (a : Codec α) (o : Option α) : (opt a).fits o ↔ ∀ x, o = some x → a.fits x := by
  cases o <;> simp [opt]

theorem fits_option_text (o : Option Bytes) : (opt bytes).fits o ↔ ∀ x, o = some x → Fits.vector x := by
  simp only [fits_option, fits_text]

theorem fits_true {α : Type} (vs : List (Variant α)) (h : ∀ a, ∃ v ∈ vs, v.fits a) (a : α) :
    (enum vs).fits a ↔ True := ⟨fun _ => trivial, fun _ => h a⟩

/-- The range of an enum, one variant after the other. -/
theorem fits_enum_cons {α : Type} (v : Variant α) (vs : List (Variant α)) (a : α) :
    (enum (v :: vs)).fits a ↔ v.fits a ∨ (enum vs).fits a := by
  simp [enum]

theorem fits_enum_nil {α : Type} (a : α) : (enum ([] : List (Variant α))).fits a ↔ False := by simp [enum]

theorem fits_buildMode (m : SgxBuildMode) : Scale.buildMode.fits m := by
  cases m <;> simp [Scale.buildMode, enum, Variant.fits, unit]

theorem fits_method (m : SgxAttestationMethod) : attestationMethod.fits m := by
  cases m <;> simp [attestationMethod, enum, Variant.fits, unit, Scale.bool]

theorem fits_status (m : SgxStatus) : sgxStatus.fits m := by
  cases m <;> simp [sgxStatus, enum, Variant.fits, unit]

theorem fits_tcbStatus (m : TcbStatus) : Scale.tcbStatus.fits m := by
  cases m <;> simp [Scale.tcbStatus, enum, Variant.fits, unit]

theorem fits_statement (m : StatementKind) : statementKind.fits m := by
  cases m <;> simp [statementKind, enum, Variant.fits, unit]

theorem fits_multiSigner (m : MultiSigner) : multiSigner.fits m := by
  cases m with
  | ed25519 k => exact ⟨_, .head _, k, rfl, trivial⟩
  | sr25519 k => exact ⟨_, .tail _ (.head _), k, rfl, trivial⟩
  | ecdsa k => exact ⟨_, .tail _ (.tail _ (.head _)), k, rfl, trivial⟩

theorem fits_signer (s : AnySigner) : anySigner.fits s ↔ ∀ b, s = .opaque b → b.length ≤ 66 := by
  cases s with
  | «opaque» b =>
    simp [anySigner, enum, Variant.fits, bounded, vec, byte]
    omega
  | known s => simp [anySigner, enum, Variant.fits, fits_multiSigner]

theorem fits_address (a : EnclaveInstanceAddress) : instanceAddress.fits a ↔ Fits.address a := by
  simp [instanceAddress, iso, pair, arr, fits_signer, Fits.address]

theorem fits_shardConfig (c : ShardConfig) : Scale.shardConfig.fits c ↔ Fits.shardConfig c := by
  simp only [Scale.shardConfig, iso, pair, fits_option, fits_number, Fits.shardConfig]
  simp [arr, vec, Scale.bool, Fits.vector]

theorem fits_vesting (w : Widths) (v : VestingInfo) : (vestingInfo w).fits v ↔ Fits.vesting w v := by
  simp only [vestingInfo, iso, pair, fits_number, Fits.vesting]

theorem fits_confirmation (c : Confirmation) : Scale.confirmation.fits c ↔ Fits.confirmation c := by
  simp only [Scale.confirmation, iso, pair, fits_number, Fits.confirmation, arr, and_true]

theorem faithful_of {α : Type} {c : Codec α} {layout : α → Bytes} {fits : α → Prop} (e : Exact c)
    (hf : ∀ v, c.fits v ↔ fits v) (hl : ∀ v, fits v → c.enc v = layout v) : Faithful c layout fits := by
  refine ⟨hl, fun i r v => ⟨fun h => ?_, ?_⟩⟩
  · obtain ⟨f, hi⟩ := e.only i v r h
    have f' := (hf v).1 f
    exact ⟨f', by rw [← hl v f']; exact hi⟩
  · rintro ⟨f, rfl⟩
    rw [← hl v f]
    exact e.read v r ((hf v).2 f)

/-! ### C116 -/

/-- The widths of the integritee runtimes: balances of 16 bytes, block numbers of 4, times of 8. -/
def demoWidths : Widths := ⟨16, 4, 8, 4⟩

/-- C116 (teerdays): bonds and pending withdrawals. -/
theorem C116_teerdays (w : Widths) :
    Faithful (teerDayBond w) (Layout.bond w) (Fits.bond w) ∧
      Faithful (pendingUnlock w) (Layout.pending w) (Fits.pending w) := by
  refine ⟨faithful_of (exact_teerDayBond w) (fun v => ?_) fun v _ => ?_,
    faithful_of (exact_pendingUnlock w) (fun v => ?_) fun v _ => ?_⟩
  · simp only [teerDayBond, iso, pair, fits_number, Fits.bond]
  · simp only [teerDayBond, iso, pair, le, Layout.bond, layout_number, List.append_assoc]
  · simp only [pendingUnlock, pair, fits_number, Fits.pending]
  · simp only [pendingUnlock, pair, le, Layout.pending, layout_number]

example : Fits.bond demoWidths ⟨1000, 5000, 77⟩ ∧ Fits.pending demoWidths (5000, 77) :=
  ⟨⟨by decide, by decide, by decide⟩, by decide, by decide⟩

/-- C116 (teerex): registered enclaves, the addresses of proxied ones, the quoting enclave, platform levels. An enclave
in range and its bytes are in the example with `demoEnclave` below. -/
theorem C116_teerex :
    Faithful multiEnclave Layout.enclave Fits.enclave ∧
      Faithful instanceAddress Layout.address Fits.address ∧
      Faithful Scale.quotingEnclave Layout.quotingEnclave Fits.quotingEnclave ∧
      Faithful tcbInfoOnChain Layout.tcbInfo Fits.tcbInfo := by
  refine ⟨faithful_of exact_multiEnclave (fun v => ?_) fun v h => ?_,
    faithful_of exact_instanceAddress fits_address layout_address,
    faithful_of exact_quotingEnclave (fun v => ?_) fun v h => ?_,
    faithful_of exact_tcbInfoOnChain (fun v => ?_) fun v h => ?_⟩
  · have e : multiEnclave.fits v ↔ sgxEnclave.fits v := by
      simp [multiEnclave, enum, Variant.fits]
    rw [e]
    simp only [sgxEnclave, iso, pair, fits_number, fits_option_text, fits_buildMode, fits_method, fits_status,
      Fits.enclave, and_true]
    simp [arr]
  · have e : multiEnclave.enc v = 0 :: sgxEnclave.enc v := rfl
    rw [e]
    simp only [sgxEnclave, iso, pair, arr, le, layout_number, layout_bytesOption _ h.2, layout_buildMode,
      layout_method, layout_status, Layout.enclave, List.append_assoc]
    rfl
  · simp only [Scale.quotingEnclave, iso, pair, fits_number, Fits.quotingEnclave, vec]
    simp [arr, Fits.vector]
  · have hl := layout_list (le 2) (Layout.number 2) v.tcb h.2.2.2.1 fun x _ => layout_number 2 x
    simp only [Scale.quotingEnclave, iso, pair, hl, Layout.quotingEnclave, List.append_assoc, layout_le, arr]
  · simp only [tcbInfoOnChain, iso, pair, fits_number, Fits.tcbInfo, vec, tcbVersionStatus, fits_tcbStatus]
    simp [arr, Fits.vector]
  · have hl := layout_list tcbVersionStatus
      (fun v => v.cpusvn.val ++ Layout.number 2 v.pcesvn ++ Layout.tcbStatus v.tcbStatus) v.tcbLevels h.2.2.1
      fun x _ => by
        simp only [tcbVersionStatus, iso, pair, arr, le, layout_number, layout_tcbStatus, List.append_assoc]
    simp only [tcbInfoOnChain, iso, pair, hl, Layout.tcbInfo, le, layout_number, List.append_assoc]

/-- C116 (enclave-bridge and sidechain): shard status, shard configuration, confirmed sidechain blocks. A shard status
in range and its bytes are in the examples below. -/
theorem C116_shards (w : Widths) :
    Faithful (signerStatusVec w) (Layout.shardStatus w) (Fits.shardStatus w) ∧
      Faithful (upgradableShardConfig w) (Layout.upgradable w) (Fits.upgradable w) ∧
      Faithful Scale.confirmation Layout.confirmation Fits.confirmation := by
  refine ⟨faithful_of (exact_signerStatusVec w) (fun v => ?_) fun v h => ?_,
    faithful_of (exact_upgradableShardConfig w) (fun v => ?_) fun v h => ?_,
    faithful_of exact_confirmation fits_confirmation fun v _ => layout_confirmation v⟩
  · have e : ∀ t, (signerStatus w).fits t ↔ Fits.number w.block t.lastActivity := fun t => by
      simp only [signerStatus, iso, pair, fits_number]
      simp [arr]
    simp only [signerStatusVec, bounded, vec, e, Fits.shardStatus]
    constructor
    · rintro ⟨⟨_, h1⟩, h2⟩
      exact ⟨h2, h1⟩
    · rintro ⟨h1, h2⟩
      exact ⟨⟨by have : 10 < 256 ^ 4 := by decide
                 omega, h2⟩, h1⟩
  · refine layout_list (signerStatus w) _ v ?_ fun t _ => ?_
    · have := h.1
      simp only [Fits.vector]; omega
    · simp only [signerStatus, iso, pair, arr, le, layout_number, List.append_assoc]
  · simp only [upgradableShardConfig, iso, pair, fits_option, fits_number, fits_shardConfig, Fits.upgradable]
  · have h1 := layout_shardConfig v.active h.1
    have h2 := layout_option Scale.shardConfig Layout.shardConfig v.pending
      fun x hx => layout_shardConfig x (h.2.1 x hx)
    have h3 := layout_option (le w.block) (Layout.number w.block) v.upgradeAt fun x _ => layout_number _ x
    simp only [upgradableShardConfig, iso, pair, h1, h2, h3, Layout.upgradable, List.append_assoc]

/-- C116 (claims): vesting schedules and kinds of statements. -/
theorem C116_claims (w : Widths) :
    Faithful (vestingInfo w) (Layout.vesting w) (Fits.vesting w) ∧
      Faithful statementKind Layout.statement fun _ => True :=
  ⟨faithful_of (exact_vestingInfo w) (fits_vesting w) fun v _ => layout_vesting w v,
    faithful_of exact_statementKind (fun v => by simp [fits_statement]) fun v _ => layout_statement v⟩

/-- A concrete enclave, its 64 + 32 + 32 + 8 + … bytes, and what reading them with three bytes behind them yields;
a truncated or changed discriminant is refused. -/
def demoEnclave : SgxEnclave where
  reportData := Arr.fill 64 1
  mrEnclave := Arr.fill 32 2
  mrSigner := Arr.fill 32 3
  timestamp := 258
  url := some [119, 115]
  buildMode := .production
  method := .dcap true
  status := .groupOutOfDate

example : Fits.enclave demoEnclave ∧
    multiEnclave.enc demoEnclave = [0] ++ List.replicate 64 1 ++ List.replicate 32 2 ++ List.replicate 32 3 ++
      [2, 1, 0, 0, 0, 0, 0, 0, 1, 8, 119, 115, 1, 2, 1, 2] ∧
    multiEnclave.dec (multiEnclave.enc demoEnclave ++ [9, 9, 9]) = some (demoEnclave, [9, 9, 9]) ∧
    multiEnclave.dec ((multiEnclave.enc demoEnclave).dropLast) = none ∧
    multiEnclave.dec (1 :: (multiEnclave.enc demoEnclave).tail) = none := by
  refine ⟨⟨by decide, fun u hu => ?_⟩, by decide +kernel, by decide +kernel, by decide +kernel, by decide +kernel⟩
  cases hu
  decide

example : Fits.bond demoWidths ⟨1000, 5000, 77⟩ ∧
    (teerDayBond demoWidths).enc ⟨1000, 5000, 77⟩ = [232, 3] ++ List.replicate 14 0 ++ [136, 19] ++
      List.replicate 6 0 ++ [77] ++ List.replicate 15 0 ∧
    ¬ Fits.bond demoWidths ⟨2 ^ 128, 5000, 77⟩ :=
  ⟨⟨by decide, by decide, by decide⟩, by decide +kernel, fun h => absurd h.1 (by decide)⟩

example : Fits.shardStatus demoWidths [⟨Demo.alice, Arr.fill 32 4, 7⟩, ⟨Demo.bob, Arr.fill 32 5, 9⟩] ∧
    (signerStatusVec demoWidths).dec (8 :: (Demo.alice.val ++ List.replicate 32 4 ++ [7, 0, 0, 0] ++ Demo.bob.val ++
      List.replicate 32 5 ++ [9, 0, 0, 0])) = some ([⟨Demo.alice, Arr.fill 32 4, 7⟩, ⟨Demo.bob, Arr.fill 32 5, 9⟩], []) :=
  ⟨by constructor <;> decide, by decide +kernel⟩

example : Fits.vesting demoWidths ⟨1000, 10, 5⟩ ∧
    (vestingInfo demoWidths).dec ((vestingInfo demoWidths).enc ⟨1000, 10, 5⟩ ++ [1]) = some (⟨1000, 10, 5⟩, [1]) :=
  ⟨⟨by decide, by decide, by decide⟩, by decide +kernel⟩

/-! ### C117 -/

theorem fits_compact (n v : Nat) : (compact n).fits v ↔ Fits.number n v := by
  simp only [compact, Fits.number, pow_bytes]

theorem fits_arr (n : Nat) (a : Arr n) : (arr n).fits a ↔ True := Iff.rfl

theorem fits_bool (b : Bool) : Scale.bool.fits b ↔ True := Iff.rfl

theorem fits_unit (u : Unit) : Scale.unit.fits u ↔ True := Iff.rfl

theorem fits_hashes (l : List H256) : (vec (arr 32)).fits l ↔ Fits.vector l := by
  simp [vec, arr, Fits.vector]

theorem fits_blob (b : Bytes) (m : Nat) : (bounded byte m).fits b ↔ Fits.vector b ∧ b.length ≤ m := by
  simp only [bounded, Fits.vector]
  exact and_congr_left fun _ => fits_text b

/-- Ranges of the calls of a pallet, case by case. -/
macro "call_fits" d:ident : tactic => `(tactic| (
  unfold $d
  simp only [fits_enum_cons, fits_enum_nil, Variant.fits, or_false, false_or, reduceCtorEq, false_and, exists_false,
    Option.some.injEq, exists_eq_left', Call.palletOf, Fits.call, pair, fits_number, fits_text, fits_option_text,
    fits_option, fits_method, fits_shardConfig, fits_vesting, fits_confirmation, fits_address, fits_statement,
    fits_compact, fits_arr, fits_unit, fits_bool, fits_hashes, fits_blob, true_and, and_true, implies_true,
    exists_const, exists_eq', and_self, and_assoc]))

/-- Bytes of the calls of a pallet, case by case. -/
macro "call_layout" d:ident : tactic => `(tactic|
  simp only [$d:ident, enum, List.findSome?, Variant.enc?, Option.map, Option.getD, pair, Layout.call,
    List.append_assoc, layout_le, layout_flag, layout_method, layout_confirmation, layout_vesting, layout_statement,
    unit])

theorem layout_arr (n : Nat) (a : Arr n) : (arr n).enc a = a.val := rfl

theorem layout_hashes (l : List H256) (h : Fits.vector l) :
    (vec (arr 32)).enc l = Layout.list (fun x : H256 => x.val) l :=
  layout_list (arr 32) (fun x => x.val) l h fun _ _ => rfl

theorem layout_blob (b : Bytes) (m : Nat) (h : Fits.vector b) : (bounded byte m).enc b = Layout.text b :=
  layout_text b h

theorem layout_compact (n v : Nat) (hn : n ≤ 67) (h : Fits.number n v) : (compact n).enc v = Layout.short v :=
  layout_short v (lt_67 hn h)

theorem layout_optionOf {α : Type} (a : Codec α) (f : α → Bytes) (h : ∀ x, a.enc x = f x) (o : Option α) :
    (opt a).enc o = Layout.option f o := layout_option a f o fun x _ => h x

/-- C117: the bytes of a transaction name one call with its arguments, and every call in range has such bytes.
For each pallet, reading the call from the front of some bytes succeeds exactly when they begin with the bytes of
a call of that pallet whose arguments are in range, and yields that call. The encoding of a location (an external
type) is assumed to be of that kind. -/
theorem C117_calls (w : Widths) (hw : 4 ≤ w.bal) (hw' : w.bal ≤ 67) (maxBlob : Nat) (loc : Codec Location)
    (hloc : Faithful loc loc.enc loc.fits) :
    let this p := fun c : Call => c.palletOf = some p ∧ Fits.call w maxBlob loc.fits c
    let bytes := Layout.call w loc.enc
    Faithful (teerdaysCall w) bytes (this .teerdays) ∧
      Faithful teerexCall bytes (this .teerex) ∧
      Faithful (bridgeCall w) bytes (this .enclaveBridge) ∧
      Faithful sidechainCall bytes (this .sidechain) ∧
      Faithful (teeracleCall maxBlob) bytes (this .teeracle) ∧
      Faithful (claimsCall w) bytes (this .claims) ∧
      Faithful (assetRegistryCall w loc) bytes (this .assetRegistry) ∧
      Faithful xcmTransactorCall bytes (this .xcmTransactor) := by
  have eloc : Exact loc :=
    ⟨fun a r h => (hloc.2 _ r a).2 ⟨h, rfl⟩, fun i a r h => (hloc.2 i r a).1 h⟩
  intro this bytes
  refine ⟨faithful_of (exact_teerdaysCall w hw hw') (fun c => ?_) fun c h => ?_,
    faithful_of exact_teerexCall (fun c => ?_) fun c h => ?_,
    faithful_of (exact_bridgeCall w) (fun c => ?_) fun c h => ?_,
    faithful_of exact_sidechainCall (fun c => ?_) fun c h => ?_,
    faithful_of (exact_teeracleCall maxBlob) (fun c => ?_) fun c h => ?_,
    faithful_of (exact_claimsCall w) (fun c => ?_) fun c h => ?_,
    faithful_of (exact_assetRegistryCall w eloc) (fun c => ?_) fun c h => ?_,
    faithful_of exact_xcmTransactorCall (fun c => ?_) fun c h => ?_⟩
  · simp only [this]
    cases c <;> call_fits teerdaysCall
  · obtain ⟨hp, hf⟩ := h
    simp only [bytes]
    cases c <;> simp only [Call.palletOf, reduceCtorEq, Option.some.injEq] at hp <;> simp only [Fits.call] at hf <;>
      call_layout teerdaysCall
    · rw [layout_compact _ _ hw' hf]
    · rw [layout_compact _ _ hw' hf]
    · rw [layout_compact _ _ hw' hf]
    · rfl
  · simp only [this]
    cases c <;> call_fits teerexCall
  · obtain ⟨hp, hf⟩ := h
    simp only [bytes]
    cases c <;> simp only [Call.palletOf, reduceCtorEq, Option.some.injEq] at hp <;> simp only [Fits.call] at hf <;>
      call_layout teerexCall
    · rw [layout_text _ hf.1, layout_bytesOption _ hf.2]
    · rfl
    · rw [layout_address _ hf]
    · rw [layout_text _ hf.1, layout_text _ hf.2.1, layout_text _ hf.2.2]
    · rw [layout_text _ hf.1, layout_text _ hf.2.1, layout_text _ hf.2.2]
  · simp only [this]
    cases c <;> call_fits bridgeCall
  · obtain ⟨hp, hf⟩ := h
    simp only [bytes]
    cases c <;> simp only [Call.palletOf, reduceCtorEq, Option.some.injEq] at hp <;> simp only [Fits.call] at hf <;>
      call_layout bridgeCall
    · rw [layout_text _ hf, layout_arr]
    · rfl
    · rw [layout_text _ hf.1, layout_arr]
    · rfl
    · rw [layout_hashes _ hf.1, layout_text _ hf.2, layout_arr]
    · rw [layout_shardConfig _ hf.1, layout_arr]
    · rfl
  · simp only [this]
    cases c <;> call_fits sidechainCall
  · obtain ⟨hp, hf⟩ := h
    simp only [bytes]
    cases c <;> simp only [Call.palletOf, reduceCtorEq, Option.some.injEq] at hp <;> simp only [Fits.call] at hf <;>
      call_layout sidechainCall
    · rw [layout_optionOf _ _ layout_confirmation, layout_arr]
  · simp only [this]
    cases c <;> call_fits teeracleCall
  · obtain ⟨hp, hf⟩ := h
    simp only [bytes]
    cases c <;> simp only [Call.palletOf, reduceCtorEq, Option.some.injEq] at hp <;> simp only [Fits.call] at hf <;>
      call_layout teeracleCall
    · rw [layout_text _ hf, layout_arr]
    · rw [layout_text _ hf, layout_arr]
    · rw [layout_text _ hf.1, layout_text _ hf.2.1, layout_blob _ _ hf.2.2.1]
    · rw [layout_text _ hf.1, layout_text _ hf.2.1, layout_optionOf _ _ (layout_le 8)]
  · simp only [this]
    cases c
    all_goals try (rename_i k; cases k)
    all_goals call_fits claimsCall
  · obtain ⟨hp, hf⟩ := h
    simp only [bytes]
    cases c <;> simp only [Call.palletOf, reduceCtorEq, Option.some.injEq] at hp
    rename_i k
    cases k <;> simp only [Fits.call] at hf <;> call_layout claimsCall
    · rfl
    · rw [layout_optionOf _ _ (layout_vesting w), layout_optionOf _ _ layout_statement, layout_arr]
    · rw [layout_text _ hf]; rfl
    · rw [layout_text _ hf]
    · rw [layout_optionOf (arr 32) (fun a : AccountId => a.val) fun _ => rfl]; rfl
  · simp only [this]
    cases c <;> call_fits assetRegistryCall
  · obtain ⟨hp, hf⟩ := h
    simp only [bytes]
    cases c <;> simp only [Call.palletOf, reduceCtorEq, Option.some.injEq] at hp <;> simp only [Fits.call] at hf <;>
      call_layout assetRegistryCall
  · simp only [this]
    cases c <;> call_fits xcmTransactorCall
  · obtain ⟨hp, hf⟩ := h
    simp only [bytes]
    cases c <;> simp only [Call.palletOf, reduceCtorEq, Option.some.injEq] at hp <;> simp only [Fits.call] at hf <;>
      call_layout xcmTransactorCall
    · rw [layout_compact 8 _ (by decide) hf.2.2.1, layout_compact 8 _ (by decide) hf.2.2.2.1]

/-- The location codec of the examples: locations without junctions. -/
def demoLoc : Codec Location where
  enc l := [UInt8.ofNat l.parents, 0]
  dec
    | p :: 0 :: r => some (⟨p.toNat, []⟩, r)
    | _ => none
  fits l := l.interior = [] ∧ l.parents < 256

theorem demoLoc_faithful : Faithful demoLoc demoLoc.enc demoLoc.fits := by
  refine ⟨fun _ _ => rfl, fun i r l => ⟨fun h => ?_, ?_⟩⟩
  · simp only [demoLoc] at h ⊢
    split at h
    · simp only [Option.some.injEq, Prod.mk.injEq] at h
      obtain ⟨rfl, rfl⟩ := h
      exact ⟨⟨rfl, UInt8.toNat_lt _⟩, by simp⟩
    · simp at h
  · obtain ⟨p, j⟩ := l
    rintro ⟨⟨hj, hp⟩, rfl⟩
    simp only at hj hp
    subst hj
    simp only [demoLoc, List.cons_append, List.nil_append]
    rw [ofNat_toNat_of_lt hp]

/-- The hypotheses of `C117_calls` hold for the widths of the runtimes and `demoLoc`; three calls and their bytes. A
compact number that is not in its shortest form is refused. -/
example : 4 ≤ demoWidths.bal ∧ demoWidths.bal ≤ 67 ∧ Faithful demoLoc demoLoc.enc demoLoc.fits ∧
    Fits.call demoWidths 100 demoLoc.fits (.bond 1000) ∧
    (teerdaysCall demoWidths).enc (.bond 1000) = [0, 161, 15] ∧
    (teerdaysCall demoWidths).dec [0, 161, 15, 8] = some (.bond 1000, [8]) ∧
    (teerdaysCall demoWidths).dec [0, 162, 15, 0, 0] = none ∧
    (bridgeCall demoWidths).dec (4 :: (List.replicate 32 6 ++ [4] ++ List.replicate 32 7 ++ [8, 1, 2])) =
      some (.publishHash (Arr.fill 32 6) [Arr.fill 32 7] [1, 2], []) ∧
    (assetRegistryCall demoWidths demoLoc).dec [0, 1, 0, 0, 0, 1, 0] = some (.registerReserveAsset 1 ⟨1, []⟩, []) ∧
    (teeracleCall 2).dec [2, 4, 97, 4, 98, 12, 1, 2, 3] = none :=
  ⟨by decide, by decide, demoLoc_faithful, by show 1000 < _; decide, by decide +kernel, by decide +kernel,
    by decide +kernel, by decide +kernel, by decide +kernel, by decide +kernel⟩

/-! ### C118 -/

theorem Exact.prefixFree {α : Type} {c : Codec α} (e : Exact c) {a b : α} {r t : Bytes} (ha : c.fits a)
    (hb : c.fits b) (h : c.enc a ++ r = c.enc b ++ t) : a = b ∧ r = t := by
  have h1 := e.read a r ha
  rw [h, e.read b t hb] at h1
  simp only [Option.some.injEq, Prod.mk.injEq] at h1
  exact ⟨h1.1.symm, h1.2.symm⟩

theorem blakeConcat_free {α : Type} {c : Codec α} (e : Exact c) (k : KeyHash) {a b : α} {r t : Bytes} (ha : c.fits a)
    (hb : c.fits b) (h : blakeConcat k c a ++ r = blakeConcat k c b ++ t) : a = b ∧ r = t := by
  simp only [blakeConcat, List.append_assoc] at h
  have hl : (k.blake128 (c.enc a)).val.length = (k.blake128 (c.enc b)).val.length := by
    rw [(k.blake128 (c.enc a)).property, (k.blake128 (c.enc b)).property]
  exact Exact.prefixFree e ha hb (List.append_inj h hl).2

theorem append_arr {n : Nat} {a b : Arr n} {r t : Bytes} (h : a.val ++ r = b.val ++ t) : a = b ∧ r = t := by
  obtain ⟨h1, h2⟩ := List.append_inj h (by rw [a.property, b.property])
  exact ⟨Subtype.ext h1, h2⟩

theorem key_prefix {h : KeyHash} {names : Pallet → Bytes} (ha : NamesApart h names) {s t : Slot} {r r' : Bytes}
    (hk : itemPrefix h (names s.pallet) (asciiBytes s.item) ++ r =
      itemPrefix h (names t.pallet) (asciiBytes t.item) ++ r') : s.item = t.item ∧ r = r' := by
  simp only [itemPrefix, List.append_assoc] at hk
  obtain ⟨h1, h2⟩ := append_arr hk
  obtain ⟨h3, h4⟩ := append_arr h2
  exact ⟨ha.2 s t h3, h4⟩

/-- C118: no storage key is the beginning of another one, hence no two entries share a key, for any 16 byte hash
of the keys. In particular nobody can make an entry collide with that of someone else by choosing its key, and
removing one entry, or everything under its key, removes nothing else. The hypotheses are met by the last example below.
-/
theorem C118_keys (w : Widths) (h : KeyHash) (names : Pallet → Bytes) (loc : Codec Location)
    (hloc : Faithful loc loc.enc loc.fits) (apart : NamesApart h names) (s t : Slot)
    (hs : Fits.slot w loc.fits s) (ht : Fits.slot w loc.fits t)
    (hk : s.key w h names loc <+: t.key w h names loc) : s = t := by
  have eloc : Exact loc :=
    ⟨fun a r h => (hloc.2 _ r a).2 ⟨h, rfl⟩, fun i a r h => (hloc.2 i r a).1 h⟩
  obtain ⟨r, hr⟩ := hk
  simp only [Slot.key, List.append_assoc] at hr
  obtain ⟨hi, hx⟩ := key_prefix apart hr
  rw [← List.append_nil (t.suffix w h loc)] at hx
  have free {α : Type} {c : Codec α} (e : Exact c) {a b : α} (fa : c.fits a) (fb : c.fits b)
      (h' : blakeConcat h c a ++ r = blakeConcat h c b ++ []) : a = b := (blakeConcat_free e h fa fb h').1
  have two {p q a b : Bytes} (f : Fits.vector p ∧ Fits.vector a) (g : Fits.vector q ∧ Fits.vector b)
      (h' : blakeConcat h bytes p ++ blakeConcat h bytes a ++ r = blakeConcat h bytes q ++ blakeConcat h bytes b ++ []) :
      p = q ∧ a = b := by
    rw [List.append_assoc, List.append_assoc] at h'
    obtain ⟨h1, h2⟩ := blakeConcat_free exact_bytes h ((fits_text _).2 f.1) ((fits_text _).2 g.1) h'
    exact ⟨h1, (blakeConcat_free exact_bytes h ((fits_text _).2 f.2) ((fits_text _).2 g.2) h2).1⟩
  cases s <;> cases t <;> first
    | (exfalso; revert hi; simp only [Slot.item]; decide)
    | rfl
    | exact congrArg _ (free (exact_arr _) trivial trivial hx)
    | exact congrArg _ (append_arr hx).1
    | exact congrArg _ (free exact_bytes ((fits_text _).2 hs) ((fits_text _).2 ht) hx)
    | exact congrArg _ (free exact_instanceAddress ((fits_address _).2 hs) ((fits_address _).2 ht) hx)
    | exact congrArg _ (free (exact_le _) ((fits_number _ _).2 hs) ((fits_number _ _).2 ht) hx)
    | exact congrArg _ (free eloc hs ht hx)
    | (obtain ⟨h1, h2⟩ := two hs ht hx; rw [h1, h2])

/-- C118 (double maps): the entries under the first key of the exchange rates are those of that trading pair, the
entries under the first key of the oracle data those of that name. -/
theorem C118_first_key (w : Widths) (h : KeyHash) (names : Pallet → Bytes) (loc : Codec Location)
    (apart : NamesApart h names) (first : Bytes) (hf : Fits.vector first) (s : Slot)
    (hs : Fits.slot w loc.fits s) :
    (itemPrefix h (names .teeracle) (asciiBytes "ExchangeRates") ++ blakeConcat h bytes first <+:
        s.key w h names loc ↔ ∃ source, s = .exchangeRate first source) ∧
      (itemPrefix h (names .teeracle) (asciiBytes "OracleData") ++ blakeConcat h bytes first <+:
        s.key w h names loc ↔ ∃ source, s = .oracleData first source) := by
  refine ⟨⟨fun ⟨r, hr⟩ => ?_, ?_⟩, ⟨fun ⟨r, hr⟩ => ?_, ?_⟩⟩
  · simp only [Slot.key, List.append_assoc] at hr
    obtain ⟨hi, hx⟩ := key_prefix (s := .exchangeRate [] []) apart hr
    cases s <;> try (exfalso; revert hi; simp only [Slot.item]; decide)
    simp only [Slot.suffix] at hx
    obtain ⟨rfl, _⟩ := blakeConcat_free exact_bytes h ((fits_text _).2 hf) ((fits_text _).2 hs.1) hx
    exact ⟨_, rfl⟩
  · rintro ⟨source, rfl⟩
    exact ⟨blakeConcat h bytes source, by simp [Slot.key, Slot.pallet, Slot.item, Slot.suffix]⟩
  · simp only [Slot.key, List.append_assoc] at hr
    obtain ⟨hi, hx⟩ := key_prefix (s := .oracleData [] []) apart hr
    cases s <;> try (exfalso; revert hi; simp only [Slot.item]; decide)
    simp only [Slot.suffix] at hx
    obtain ⟨rfl, _⟩ := blakeConcat_free exact_bytes h ((fits_text _).2 hf) ((fits_text _).2 hs.1) hx
    exact ⟨_, rfl⟩
  · rintro ⟨source, rfl⟩
    exact ⟨blakeConcat h bytes source, by simp [Slot.key, Slot.pallet, Slot.item, Slot.suffix]⟩

/-- A hash that keeps the first 16 bytes. -/
def demoHash : KeyHash where
  twox128 b := ⟨b.take 16 ++ List.replicate (16 - b.length) 0, by simp; omega⟩
  blake128 _ := Arr.zero 16

/-- Names of the pallets in a runtime. -/
def demoNames : Pallet → Bytes
  | .teerdays => asciiBytes "Teerdays"
  | .teerex => asciiBytes "Teerex"
  | .enclaveBridge => asciiBytes "EnclaveBridge"
  | .sidechain => asciiBytes "Sidechain"
  | .teeracle => asciiBytes "Teeracle"
  | .claims => asciiBytes "Claims"
  | .assetRegistry => asciiBytes "AssetRegistry"

/-- The names of all storage items. -/
def allItems : List String :=
  ["TeerDayBonds", "PendingUnlock", "SovereignEnclaves", "ProxiedEnclaves", "SgxQuotingEnclaveRegistry", "SgxTcbInfo",
    "SgxAllowDebugMode", "AllowSkippingAttestation", "ShardStatus", "ShardConfigRegistry", "ExecutedUnshieldCalls",
    "LatestSidechainBlockConfirmation", "ExchangeRates", "OracleData", "Whitelists", "Claims", "Total", "Vesting",
    "Signing", "Preclaims", "AssetIdLocation", "AssetLocationId"]

/-- `NamesApart` holds already for a hash that keeps the first 16 bytes of the names. -/
theorem demoApart : NamesApart demoHash demoNames := by
  constructor
  · intro p q
    cases p <;> cases q <;> decide +kernel
  · intro s t
    have hs : s.item ∈ allItems := by cases s <;> simp [Slot.item, allItems]
    have ht : t.item ∈ allItems := by cases t <;> simp [Slot.item, allItems]
    have all : ∀ a ∈ allItems, ∀ b ∈ allItems,
        demoHash.twox128 (asciiBytes a) = demoHash.twox128 (asciiBytes b) → a = b := by decide +kernel
    exact all _ hs _ ht

/-- The hypotheses of C118 are met although `demoHash` maps all keys of a map to the same 16 bytes: two sources for
the pair `[1]` and one for the pair `[1, 1]`. -/
example : NamesApart demoHash demoNames ∧ Faithful demoLoc demoLoc.enc demoLoc.fits ∧ Fits.vector [(1 : UInt8)] ∧
    Fits.slot demoWidths demoLoc.fits (.exchangeRate [1] [2]) ∧
    Fits.slot demoWidths demoLoc.fits (.exchangeRate [1, 1] [2]) ∧
    (Slot.exchangeRate [1] [2]).key demoWidths demoHash demoNames demoLoc ≠
      (Slot.exchangeRate [1, 1] [2]).key demoWidths demoHash demoNames demoLoc ∧
    (Slot.exchangeRate [1] [2]).key demoWidths demoHash demoNames demoLoc =
      asciiBytes "Teeracle" ++ List.replicate 8 0 ++ asciiBytes "ExchangeRates" ++ List.replicate 3 0 ++
        List.replicate 16 0 ++ [4, 1] ++ List.replicate 16 0 ++ [4, 2] :=
  ⟨demoApart, demoLoc_faithful, by decide, ⟨by decide, by decide⟩, ⟨by decide, by decide⟩, by decide +kernel,
    by decide +kernel⟩

end Verif
