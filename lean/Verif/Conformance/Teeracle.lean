import Verif.Conformance.Bridge

/-!
# teeracle/src/tests.rs on the model

As in `Verif/Conformance/Sidechain.lean` the enclave is put into the registry directly. Exchange rates are the raw
64 bits of `U32F32`.
-/

namespace Verif.Conf.Teeracle

def c : Cfg := mockCfg
/-- The bytes of an ASCII text. -/
def txt (s : String) : Bytes := s.toList.map fun ch => UInt8.ofNat ch.toNat
def gecko : Bytes := txt "https://api.coingecko.com"
def cap : Bytes := txt "https://coinmarketcap.com/"
def pair : Bytes := txt "DOT/USD"
def srcName : Bytes := txt "Test_Source_Name"
def dataName : Bytes := txt "Test_Oracle_Name"
def m4 : Fingerprint := h 40
def m5 : Fingerprint := h 50
def m8 : Fingerprint := h 80
def signer4 : AccountId := h 44
def signer5 : AccountId := h 55
/-- `U32F32::from_num(43.65)` and `U32F32::from_num(4294967295.65)`: floor of the value times 2^32. -/
def rate : Nat := 4365 * 2 ^ 32 / 100
def rate2 : Nat := 429496729565 * 2 ^ 32 / 100

def addWl (o : Origin) (src : Bytes) (fp : Fingerprint) : Op := .ext o (.addToWhitelist src fp)
def remWl (o : Origin) (src : Bytes) (fp : Fingerprint) : Op := .ext o (.removeFromWhitelist src fp)
def update (p : Bytes) (r : Option Nat) : Op := .ext (.signed signer4) (.updateExchangeRate gecko p r)
def oracle (blob : Bytes) : Op := .ext (.signed signer4) (.updateOracle dataName srcName blob)
/-- `register_ias_enclave_and_add_oracle_to_whitelist_ok`, teeracle/src/tests.rs L41-52. -/
def setup (src : Bytes) : List Step := [register signer4 m4, ok c (addWl .root src m4)]
def event (e : OrEvent) : Step := check fun s => s.orc.events.head? = some e
/-- The getter `exchange_rate`: zero without an entry. -/
def getRate (r : Nat) : Step := check fun s => (s.orc.rates pair gecko).getD 0 = r
def noRate : Step := check fun s => s.orc.rates pair gecko = none
def wlLen (src : Bytes) (n : Nat) : Step := check fun s => (s.orc.whitelist src).length = n

/-- `update_exchange_rate_works`, teeracle/src/tests.rs L71-95. -/
example : play mock (setup gecko ++ [ok c (update pair (some rate)), event (.exchangeRateUpdated gecko pair rate),
    getRate rate, ok c (update pair (some rate2)), getRate rate2]) = true := by decide +kernel

/-- `update_oracle_works`, teeracle/src/tests.rs L98-124. -/
example : play mock (setup srcName ++ [ok c (oracle [1]), event (.oracleUpdated dataName srcName),
    check fun s => s.orc.blobs dataName srcName = some [1]]) = true := by decide +kernel

/-- `get_existing_exchange_rate_works`, teeracle/src/tests.rs L127-137. -/
example : play mock (setup gecko ++ [ok c (update pair (some rate)), getRate rate]) = true := by decide +kernel

/-- `get_inexisting_exchange_rate_is_zero`, teeracle/src/tests.rs L140-151. -/
example : play mock [noRate, getRate 0] = true := by decide +kernel

/-- `update_exchange_rate_to_none_delete_exchange_rate`, teeracle/src/tests.rs L154-172. -/
example : play mock (setup gecko ++ [ok c (update pair (some rate)), ok c (update pair none),
    event (.exchangeRateDeleted gecko pair), noRate]) = true := by decide +kernel

/-- `update_exchange_rate_to_zero_delete_exchange_rate`, teeracle/src/tests.rs L175-194. -/
example : play mock (setup gecko ++ [ok c (update pair (some rate)), ok c (update pair (some 0)),
    event (.exchangeRateDeleted gecko pair), noRate]) = true := by decide +kernel

/-- `update_exchange_rate_from_not_registered_enclave_fails`, teeracle/src/tests.rs L197-211. -/
example : play mock [noop c (update pair (some rate)) .enclaveIsNotRegistered] = true := by decide +kernel

/-- `update_oracle_from_not_registered_enclave_fails`, teeracle/src/tests.rs L214-227. -/
example : play mock [noop c (oracle [0]) .enclaveIsNotRegistered] = true := by decide +kernel

/-- `update_exchange_rate_from_not_whitelisted_oracle_fails`, teeracle/src/tests.rs L230-252. -/
example : play mock [register signer4 m4, noop c (update pair (some rate)) .fingerprintNotWhitelisted] = true := by
  decide +kernel

/-- `update_oracle_from_not_whitelisted_oracle_fails`, teeracle/src/tests.rs L255-276. -/
example : play mock [register signer4 m4, noop c (oracle [0]) .fingerprintNotWhitelisted] = true := by
  decide +kernel

/-- `update_exchange_rate_with_too_long_trading_pair_fails`, teeracle/src/tests.rs L279-296. -/
example : play mock (setup gecko ++ [noop c (update (txt "123456789_12") (some rate)) .tradingPairStringTooLong]) =
    true := by decide +kernel

/-- `add_to_whitelist_works`, teeracle/src/tests.rs L299-314. -/
example : play mock [ok c (addWl .root gecko m4), event (.addedToWhitelist gecko m4), wlLen gecko 1] = true := by
  decide +kernel

/-- `add_mulitple_src_to_whitelists_works`, teeracle/src/tests.rs L317-339. -/
example : play mock [ok c (addWl .root gecko m4), ok c (addWl .root cap m4), event (.addedToWhitelist cap m4),
    wlLen gecko 1, wlLen cap 1] = true := by decide +kernel

/-- `add_two_times_to_whitelist_fails`, teeracle/src/tests.rs L342-360. -/
example : play mock [ok c (addWl .root gecko m4), noop c (addWl .root gecko m4) .fingerprintAlreadyWhitelisted,
    wlLen gecko 1] = true := by decide +kernel

/-- `add_too_many_oracles_to_whitelist_fails`, teeracle/src/tests.rs L363-441. -/
example : play mock (([m4, m5, h 2, h 3, h 4, h 5, h 6, h 7, h 8, h 9].map fun m => ok c (addWl .root gecko m)) ++
    [noop c (addWl .root gecko m8) .fingerprintWhitelistOverflow, wlLen gecko 10]) = true := by decide +kernel

/-- `add_to_whitelist_too_long_source_fails`, teeracle/src/tests.rs L443-455. -/
example : play mock [noop c (addWl .root (txt "123456789_223456789_323456789_423456789_1") m4)
    .dataSourceStringTooLong] = true := by decide +kernel

/-- `non_root_add_to_whitelist_fails`, teeracle/src/tests.rs L458-472. -/
example : play mock [noop c (addWl (.signed signer5) gecko m4) .badOrigin, wlLen gecko 0] = true := by
  decide +kernel

/-- `remove_from_whitelist_works`, teeracle/src/tests.rs L475-495. -/
example : play mock [ok c (addWl .root gecko m4), ok c (remWl .root gecko m4), event (.removedFromWhitelist gecko m4),
    wlLen gecko 0] = true := by decide +kernel

/-- `remove_from_whitelist_not_whitelisted_fails`, teeracle/src/tests.rs L498-515. -/
example : play mock [ok c (addWl .root gecko m4), noop c (remWl .root gecko m5) .fingerprintNotWhitelisted,
    wlLen gecko 1] = true := by decide +kernel

/-- `remove_from_empty_whitelist_doesnt_crash`, teeracle/src/tests.rs L518-531. -/
example : play mock [wlLen gecko 0, noop c (remWl .root gecko m5) .fingerprintNotWhitelisted, wlLen gecko 0] =
    true := by decide +kernel

/-- `non_root_remove_from_whitelist_fails`, teeracle/src/tests.rs L534-553. -/
example : play mock [ok c (addWl .root gecko m4), noop c (remWl (.signed signer5) gecko m4) .badOrigin,
    wlLen gecko 1] = true := by decide +kernel

end Verif.Conf.Teeracle
