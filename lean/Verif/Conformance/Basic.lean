import Verif.Spec.Demo

/-!
# Conformance suite: the unit tests of /repo, replayed on the model

The files under `Verif/Conformance` transliterate the unit tests of /repo, statement by statement, into scripts
which are run on the model by the kernel. They are tests of the model against expectations written down by the
authors of the code. They are not proofs of any property, and no claim of MANIFEST.json rests on them.

A script is a list of steps. `ok` is `assert_ok!`, `noop` is `assert_noop!`, `check` is `assert!`/`assert_eq!`.
-/

namespace Verif.Conf

/-- One statement of a test: the state after it, or nothing if the test fails here. -/
abbrev Step := Chain → Option Chain

/-- `assert_ok!(call)`. -/
def ok (c : Cfg) (op : Op) : Step := fun s =>
  match exec c s op with
  | .ok s' => some s'
  | .error _ => none

/-- `assert_noop!(call, error)`; that a failing call changes nothing is part of the model (`step`). -/
def noop (c : Cfg) (op : Op) (e : Err) : Step := fun s =>
  match exec c s op with
  | .ok _ => none
  | .error e' => if e' = e then some s else none

/-- `assert!(condition)`. -/
def check (p : Chain → Bool) : Step := fun s => if p s then some s else none

/-- A statement which is not an assertion: sets the time, the balances, ... -/
def put (f : Chain → Chain) : Step := fun s => some (f s)

/-- Call of an internal function which returns a `Result`, `assert_ok!`ed. -/
def call (f : Chain → Except Err Chain) : Step := fun s =>
  match f s with
  | .ok s' => some s'
  | .error _ => none

/-- `run_to_block(n)` and `set_timestamp(t)`. -/
def at_ (block now : Nat) : Step := put fun s => { s with block := block, now := now }

/-- `make_free_balance_be(who, v)`. -/
def setFree (who : AccountId) (v : Nat) : Step := put fun s =>
  { s with bal := { s.bal with free := upd s.bal.free who v
                               issuance := s.bal.issuance - s.bal.free who + v } }

/-- The whole test passes. -/
def play (s : Chain) (l : List Step) : Bool := (l.foldlM (fun (s : Chain) (f : Step) => f s) s).isSome

/-- Test accounts. -/
def alice : AccountId := Arr.fill 32 1
def bob : AccountId := Arr.fill 32 2
def charlie : AccountId := Arr.fill 32 3
def dave : AccountId := Arr.fill 32 4

/-- `1 << 60` for Alice, nobody else has anything. -/
def mockBal : Balances where
  free := fun a => if a = alice then 2 ^ 60 else 0
  lock := fun _ _ => 0
  schedules := fun _ => []
  issuance := 2 ^ 60

/-- The mock runtimes of teerdays, teerex, enclave-bridge, sidechain and teeracle (src/mock.rs of each),
restricted to what the model looks at: existential deposit 1, unlock period one day. -/
def mockCfg : Cfg := { Demo.cfg with ed := 1, unlockPeriod := 86400000, overflowChecks := true }

/-- `new_test_ext()`: block 1, both flags of teerex set. -/
def mock : Chain := { genesis mockBal true true Demo.noClaims with block := 1 }

end Verif.Conf
