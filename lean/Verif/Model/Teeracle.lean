import Verif.Model.Teerex

/-!
# Model of teeracle/src/lib.rs and primitives/teeracle/src/lib.rs
-/

namespace Verif

namespace Teeracle

/-- `MAX_TRADING_PAIR_LEN`, teeracle/src/lib.rs L40. -/
def maxTradingPairLen : Nat := 11
/-- `MAX_SOURCE_LEN`, teeracle/src/lib.rs L41. -/
def maxSourceLen : Nat := 40
/-- `MAX_ORACLE_DATA_NAME_LEN`, primitives/teeracle/src/lib.rs L6. -/
def maxOracleDataNameLen : Nat := 40

/-- `deposit_event`, teeracle/src/lib.rs L107. -/
def emit (s : Chain) (e : OrEvent) : Chain := { s with orc := { s.orc with events := e :: s.orc.events } }

/-- `is_whitelisted`, teeracle/src/lib.rs L259-261. -/
def isWhitelisted (s : Chain) (source : Bytes) (fp : Fingerprint) : Bool := (s.orc.whitelist source).contains fp

/-- `exchange_rate` getter (`ValueQuery`), teeracle/src/lib.rs L71-81: zero if there is no entry. -/
def exchangeRate (s : Chain) (pair source : Bytes) : Nat := (s.orc.rates pair source).getD 0

/-- `oracle_data` getter (`ValueQuery`), teeracle/src/lib.rs L83-93: empty if there is no entry. -/
def oracleData (s : Chain) (name source : Bytes) : Bytes := (s.orc.blobs name source).getD []

/-- Replace one whitelist, teeracle/src/lib.rs L161-163, L180-182. -/
def setWhitelist (s : Chain) (source : Bytes) (l : List Fingerprint) : Chain :=
  { s with orc := { s.orc with whitelist := upd s.orc.whitelist source l } }

/-- `add_to_whitelist`, teeracle/src/lib.rs L150-167. `try_push` fails iff the vector already has
`MaxWhitelistedReleases` entries. -/
def addToWhitelist (c : Cfg) (s : Chain) (o : Origin) (source : Bytes) (fp : Fingerprint) :
    Except Err Chain := do
  ensureRoot o
  ensure (decide (source.length ≤ maxSourceLen)) .dataSourceStringTooLong
  ensure (!isWhitelisted s source fp) .fingerprintAlreadyWhitelisted
  let l := s.orc.whitelist source
  ensure (decide (l.length < c.maxWhitelisted)) .fingerprintWhitelistOverflow
  .ok (emit (setWhitelist s source (l ++ [fp])) (.addedToWhitelist source fp))

/-- `remove_from_whitelist`, teeracle/src/lib.rs L170-185. -/
def removeFromWhitelist (s : Chain) (o : Origin) (source : Bytes) (fp : Fingerprint) : Except Err Chain := do
  ensureRoot o
  ensure (isWhitelisted s source fp) .fingerprintNotWhitelisted
  let l := (s.orc.whitelist source).filter fun m => m ≠ fp
  .ok (emit (setWhitelist s source l) (.removedFromWhitelist source fp))

/-- `update_oracle`, teeracle/src/lib.rs L189-216. The type `OracleDataBlob` is a bounded vector, so a longer
blob is already rejected when the call is decoded; the model takes any bytes and keeps the explicit check
(L208-211). -/
def updateOracle (c : Cfg) (s : Chain) (o : Origin) (name source blob : Bytes) : Except Err Chain := do
  let sender ← ensureSigned o
  let enclave ← okOr (s.tx.sovereign sender) .enclaveIsNotRegistered
  ensure (isWhitelisted s source enclave.fingerprint) .fingerprintNotWhitelisted
  ensure (decide (name.length ≤ maxOracleDataNameLen)) .oracleDataNameStringTooLong
  ensure (decide (source.length ≤ maxSourceLen)) .dataSourceStringTooLong
  ensure (decide (blob.length ≤ c.maxBlob)) .oracleBlobTooBig
  let s := { s with orc := { s.orc with blobs := upd s.orc.blobs name (upd (s.orc.blobs name) source (some blob)) } }
  .ok (emit s (.oracleUpdated name source))

/-- `update_exchange_rate`, teeracle/src/lib.rs L220-255. A rate is given by its raw bits. -/
def updateExchangeRate (s : Chain) (o : Origin) (source pair : Bytes) (new : Option Nat) : Except Err Chain := do
  let sender ← ensureSigned o
  let enclave ← okOr (s.tx.sovereign sender) .enclaveIsNotRegistered
  ensure (decide (pair.length ≤ maxTradingPairLen)) .tradingPairStringTooLong
  ensure (isWhitelisted s source enclave.fingerprint) .fingerprintNotWhitelisted
  let set (v : Option Nat) : Chain :=
    { s with orc := { s.orc with rates := upd s.orc.rates pair (upd (s.orc.rates pair) source v) } }
  match new with
  | none => .ok (emit (set none) (.exchangeRateDeleted source pair))
  | some 0 => .ok (emit (set none) (.exchangeRateDeleted source pair))
  | some (r + 1) => .ok (emit (set (some (r + 1))) (.exchangeRateUpdated source pair (r + 1)))

end Teeracle

end Verif
