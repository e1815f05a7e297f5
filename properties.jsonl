{"id": "C01", "title": "Bonded and unbonding tokens stay locked", "statement": "At every moment, the balance lock that the teerdays pallet holds on an account is at least the account's current bond value plus the amount of its pending unlock.", "quantifier": "every account, every history of extrinsics of all accounts, block progress and outside balance changes", "why_tests_cant": "Depends on the order in which bond, unbond, bond_extra and withdraw_unbonded are interleaved over an unbounded history; the unit tests only follow one happy path.", "anchors": ["teerdays/src/lib.rs::bond", "teerdays/src/lib.rs::bond_extra", "teerdays/src/lib.rs::unbond", "teerdays/src/lib.rs::try_withdraw_unbonded"]}
{"id": "C02", "title": "Unbonding respects the unlock period", "statement": "After an account unbonds an amount at time t, none of the tokens that were locked at that moment is released from the teerdays lock before time t + UnlockPeriod, whatever calls the account or anybody else makes.", "quantifier": "every account, every time t, every later history", "why_tests_cant": "A bypass needs only one unlucky sequence of calls; tests only show that the direct withdraw call is refused early.", "anchors": ["teerdays/src/lib.rs::unbond", "teerdays/src/lib.rs::bond", "teerdays/src/lib.rs::try_withdraw_unbonded"]}
{"id": "C03", "title": "Lazy tokentime updates are path independent", "statement": "Calling update_other on an account any number of times, at any times and by anybody, gives the same accumulated tokentime at time t as a single update at t; updating twice at the same time changes nothing.", "quantifier": "every bond, every non-decreasing sequence of update times, including runs that hit the saturation bound", "why_tests_cant": "Equality has to hold for all numbers and all lengths of update sequences, also in the presence of saturating arithmetic.", "anchors": ["primitives/teerdays/src/lib.rs::TeerDayBond::update", "teerdays/src/lib.rs::update_other", "teerdays/src/lib.rs::do_update_teerdays"]}
{"id": "C04", "title": "Tokentime is the time integral of the bond", "statement": "As long as an account only bonds, bonds extra and is updated, its tokentime equals the sum over time of (bonded value x elapsed time), capped at the balance type's maximum; over histories that also unbond it never exceeds that integral.", "quantifier": "every account and every history of extrinsics and block times", "why_tests_cant": "The claim is about an accumulated sum over unbounded histories with arbitrary interleavings of other accounts' calls.", "anchors": ["primitives/teerdays/src/lib.rs::TeerDayBond::update", "teerdays/src/lib.rs::bond", "teerdays/src/lib.rs::bond_extra", "teerdays/src/lib.rs::unbond"]}
{"id": "C05", "title": "Tokentime arithmetic does not saturate for 100 years", "statement": "With a u128 balance, total bonded value at most 10^7 TEER with 12 decimals and millisecond moments within 100 years, accumulating tokentime never hits the saturation bound, so the stored value is exact.", "quantifier": "all values, update schedules and histories within the documented bounds", "why_tests_cant": "The documented 'numerical stability' argument is about all values in a 60+42 bit range.", "anchors": ["teerdays/src/lib.rs (Numerical stability doc)", "primitives/teerdays/src/lib.rs::TeerDayBond::update"]}
{"id": "C06", "title": "Unbonding burns tokentime pro rata", "statement": "Unbonding leaves at most the pro-rata share accumulated*new/old of the tokentime, less than new_value units below the exact share; it burns everything if the whole bond is unbonded, and the event reports exactly the burned difference.", "quantifier": "all bond values, accumulated tokentimes and unbond amounts", "why_tests_cant": "Integer division and saturating multiplication must be bounded for all inputs.", "anchors": ["teerdays/src/lib.rs::unbond"]}
{"id": "C07", "title": "A bond is always covered by free balance when it is made and its tokens cannot be transferred away", "statement": "bond and bond_extra never bond more than the account's free balance, and as long as only transfers and pallet calls (no slashing) change balances, the teerdays lock never exceeds the free balance, so locked tokens cannot be moved out by transfers, shielding or any other call.", "quantifier": "every account and every history", "why_tests_cant": "Needs an invariant over arbitrary interleavings of currency operations and bonding calls.", "anchors": ["teerdays/src/lib.rs::bond", "teerdays/src/lib.rs::bond_extra", "enclave-bridge/src/lib.rs::shield_funds"]}
{"id": "C08", "title": "One bond and one pending unlock per account", "statement": "bond fails when a bond exists, bond_extra and unbond fail while an unlock is pending, so the pending unlock of an account is never overwritten or merged before it has been withdrawn; a pending unlock always carries the deadline (unbond time + UnlockPeriod, as long as that is a representable time).", "quantifier": "every account and history", "why_tests_cant": "A statement about all reachable states.", "anchors": ["teerdays/src/lib.rs::bond", "teerdays/src/lib.rs::bond_extra", "teerdays/src/lib.rs::unbond"]}
{"id": "C09", "title": "Nobody can change another account's bond", "statement": "A teerdays call signed by one account leaves every other account's bond value, pending unlock and lock untouched; the only effect it can have on another account is bringing its tokentime up to date.", "quantifier": "every pair of distinct accounts, every call and state", "why_tests_cant": "Universally quantified frame condition.", "anchors": ["teerdays/src/lib.rs::update_other", "teerdays/src/lib.rs::bond", "teerdays/src/lib.rs::unbond", "teerdays/src/lib.rs::withdraw_unbonded"]}
{"id": "C10", "title": "Unbonded tokens are released at most once", "statement": "The total amount ever withdrawn by an account never exceeds the total amount it ever unbonded, and each withdrawal consumes exactly one earlier unbonding.", "quantifier": "every account and history", "why_tests_cant": "Sum over unbounded histories.", "anchors": ["teerdays/src/lib.rs::unbond", "teerdays/src/lib.rs::withdraw_unbonded"]}
{"id": "C11", "title": "Unbonding everything releases everything", "statement": "If an account unbonds so that its bond is removed and later withdraws after the unlock period, then no teerdays lock is left on the account.", "quantifier": "every account, bond value, unbond amount and existential deposit", "why_tests_cant": "Tests use an existential deposit of 1 for which the interesting remainder case cannot occur.", "anchors": ["teerdays/src/lib.rs::unbond", "teerdays/src/lib.rs::try_withdraw_unbonded"]}
{"id": "C12", "title": "A sovereign enclave is registered under its own attested key", "statement": "In every reachable state an enclave in the sovereign registry carries, in the first 32 bytes of its report data, exactly the account it is registered under, and for IAS and DCAP this value comes from the verified attestation report.", "quantifier": "every account and every history of registrations, removals and flag changes, every proof bytes", "why_tests_cant": "Must hold for all proofs and all histories; tests use five recorded proofs.", "anchors": ["teerex/src/lib.rs::register_sgx_enclave", "teerex/src/lib.rs::add_enclave", "primitives/teerex/src/lib.rs::SgxEnclave::maybe_pubkey"]}
{"id": "C13", "title": "A proxied enclave's address identifies registrar, code and key", "statement": "Every entry of the proxied registry is stored under an address whose fingerprint is the enclave's measurement, whose signer is the 64-byte report data and whose registrar is the account that submitted it; sovereign and proxied registrations never mix; distinct report data give distinct addresses.", "quantifier": "every history and registration", "why_tests_cant": "Invariant over all reachable states plus injectivity over all 64-byte report data.", "anchors": ["teerex/src/lib.rs::add_enclave", "primitives/teerex/src/lib.rs::MultiEnclave::instance_signer", "primitives/common/src/lib.rs::AnySigner"]}
{"id": "C14", "title": "An accepted DCAP quote is authentic byte for byte", "statement": "If verify_dcap_quote accepts a byte string then, at the documented offsets of that byte string: the version is 3 and key type is 2, the attestation key's signature over header and report body verifies, the hash of key and authentication data equals the quoting-enclave report data, the quoting-enclave report is signed by a leaf certificate that chains to the Intel root at verification time, and the returned measurement, signer, report data and debug flag are exactly the signed bytes.", "quantifier": "all byte strings, verification times, quoting enclave collateral and behaviours of the cryptographic primitives", "why_tests_cant": "Acceptance soundness over all byte strings.", "anchors": ["teerex/sgx-verify/src/lib.rs::verify_dcap_quote", "teerex/sgx-verify/src/lib.rs::DcapQuote", "teerex/sgx-verify/src/lib.rs::SgxReportBody"]}
{"id": "C15", "title": "A DCAP quote has no slack bytes", "statement": "An accepted quote's length is exactly the one determined by its authentication and certification data size fields, and certification data never exceeds 65000 bytes.", "quantifier": "all byte strings", "why_tests_cant": "All inputs.", "anchors": ["teerex/sgx-verify/src/lib.rs::QeAuthenticationData::decode", "teerex/sgx-verify/src/lib.rs::QeCertificationData::decode", "teerex/sgx-verify/src/lib.rs::verify_dcap_quote"]}
{"id": "C16", "title": "Attestation verification never panics", "statement": "For every proof byte string, verify_dcap_quote and verify_ias_report return a result and never index out of bounds or panic.", "quantifier": "all byte strings and all behaviours of the cryptographic primitives", "why_tests_cant": "A panic in the runtime bricks block production; fuzzing cannot exhaust inputs.", "anchors": ["teerex/sgx-verify/src/lib.rs::verify_dcap_quote", "teerex/sgx-verify/src/lib.rs::verify_ias_report", "teerex/sgx-verify/src/netscape_comment.rs", "teerex/sgx-verify/src/utils.rs"]}
{"id": "C17", "title": "IAS registrations are fresh and cannot be replayed once stale", "statement": "An IAS registration succeeds only if the report timestamp is not in the future and less than one day old; therefore, if the renewal period is at least a day, once an IAS enclave has been removed for being stale the same report can never be registered again.", "quantifier": "all reports, times and later histories", "why_tests_cant": "Temporal statement over all later histories.", "anchors": ["teerex/src/lib.rs::ensure_timestamp_within_24_hours", "teerex/src/lib.rs::register_sgx_enclave", "teerex/src/lib.rs::unregister_sovereign_enclave"]}
{"id": "C18", "title": "Only stale enclaves can be unregistered", "statement": "Unregistering (sovereign or proxied) succeeds exactly when the entry exists and its attestation timestamp is older than now minus the renewal period; no other call ever removes an enclave, and once stale anybody can remove it.", "quantifier": "all accounts, states, times and histories", "why_tests_cant": "Both directions over all states and times.", "anchors": ["teerex/src/lib.rs::unregister_sovereign_enclave", "teerex/src/lib.rs::unregister_proxied_enclave"]}
{"id": "C19", "title": "Debug enclaves are kept out unless allowed", "statement": "While debug mode has never been allowed, no enclave with build mode Debug is in any registry; build mode is Debug exactly if the debug attribute bit of the attested report is set.", "quantifier": "every history and every report", "why_tests_cant": "Invariant over histories.", "anchors": ["teerex/src/lib.rs::register_sgx_enclave", "teerex/sgx-verify/src/lib.rs::SgxReportBody::sgx_build_mode"]}
{"id": "C20", "title": "Skipping attestation and security flags are root controlled", "statement": "Unattested (Skip) registrations succeed only while the allow_skipping_attestation flag is set, the two flags change only by a root call, and while the flag has never been set every registered enclave stems from a verified IAS or DCAP proof.", "quantifier": "every history and origin", "why_tests_cant": "Invariant over histories and origins.", "anchors": ["teerex/src/lib.rs::set_security_flags", "teerex/src/lib.rs::register_sgx_enclave"]}
{"id": "C21", "title": "TCB level evaluation picks the first dominated level", "statement": "The status returned for a platform is the status of the first TCB level in the stored order all of whose 16 CPU SVN components and PCE SVN are less than or equal to the platform's; registration fails when there is no such level, and raising any SVN of a platform never turns acceptance into rejection.", "quantifier": "all collateral and all platform SVNs", "why_tests_cant": "All inputs; monotonicity is a relation between pairs of inputs.", "anchors": ["primitives/teerex/src/lib.rs::SgxTcbInfoOnChain::verify_examinee", "primitives/teerex/src/lib.rs::TcbVersionStatus::verify_examinee"]}
{"id": "C22", "title": "Stored collateral was signed by Intel and valid when registered", "statement": "Every stored TCB info and quoting enclave identity (other than the empty initial one) was parsed from data signed by a leaf certificate chaining to the Intel root, with the right type id and version, and its validity window (issue date, next update) strictly contained the registration time.", "quantifier": "every history, all bytes and all behaviours of the cryptographic primitives", "why_tests_cant": "Invariant over histories.", "anchors": ["teerex/src/lib.rs::verify_tcb_info", "teerex/src/lib.rs::verify_quoting_enclave", "teerex/sgx-verify/src/collateral.rs::TcbInfo::is_valid", "teerex/sgx-verify/src/collateral.rs::EnclaveIdentity::is_valid"]}
{"id": "C23", "title": "DCAP registration uses collateral that is currently valid", "statement": "A DCAP registration is accepted only when the on-chain TCB info and quoting enclave identity it is checked against have not passed their next_update date.", "quantifier": "all states, times and proofs", "why_tests_cant": "Tests run at one fixed timestamp.", "anchors": ["teerex/src/lib.rs::register_sgx_enclave", "primitives/teerex/src/lib.rs::SgxTcbInfoOnChain"]}
{"id": "C24", "title": "Collateral is never rolled back", "statement": "Registering TCB info for an FMSPC or a quoting enclave never replaces stored collateral by one with an older issue date.", "quantifier": "all states and submitted collateral", "why_tests_cant": "Depends on the order in which two valid collaterals are submitted.", "anchors": ["teerex/src/lib.rs::register_tcb_info", "teerex/src/lib.rs::register_quoting_enclave"]}
{"id": "C25", "title": "Quoting enclave identity check", "statement": "A quoting-enclave report is accepted exactly if product id and signer match, the masked MISCSELECT bytes match, the masked 64 attribute flag bits equal the reference flags, and its ISV SVN is at least one of the SVNs in the stored identity.", "quantifier": "all reports and identities", "why_tests_cant": "All inputs, bit level.", "anchors": ["teerex/sgx-verify/src/lib.rs::SgxReportBody::verify", "teerex/sgx-verify/src/lib.rs::SgxReportBody::verify_misc_select_field", "teerex/sgx-verify/src/lib.rs::SgxReportBody::verify_attributes_field"]}
{"id": "C26", "title": "Registry entries are bounded and never from the future", "statement": "Every registered enclave has a worker URL of at most 256 bytes and an attestation timestamp not later than the current time, and no proof longer than 5000 bytes is ever processed.", "quantifier": "every history", "why_tests_cant": "Invariant.", "anchors": ["teerex/src/lib.rs::register_sgx_enclave"]}
{"id": "C27", "title": "An unshielding call pays out at most once", "statement": "For every call hash, at most one unshield_funds call ever transfers money, no matter how often, by whom and with which other arguments it is repeated.", "quantifier": "every history and call hash", "why_tests_cant": "At-most-once over unbounded histories.", "anchors": ["enclave-bridge/src/lib.rs::unshield_funds", "enclave-bridge/src/lib.rs::ExecutedUnshieldCalls"]}
{"id": "C28", "title": "The confirmation counter counts confirmations", "statement": "The stored confirmation count of a call hash equals the number of successful unshield_funds calls with this hash (modulo 2^64, the size of the counter).", "quantifier": "every history", "why_tests_cant": "Counting over histories.", "anchors": ["enclave-bridge/src/lib.rs::unshield_funds"]}
{"id": "C29", "title": "Shard status is bounded and has one entry per signer", "statement": "Every shard status has at most 10 entries, no two with the same signer, and no activity later than the current block; touching a shard only changes the toucher's entry and keeps the order of the others.", "quantifier": "every shard and history", "why_tests_cant": "Invariant.", "anchors": ["enclave-bridge/src/lib.rs::touch_shard", "primitives/enclave-bridge/src/lib.rs::MAX_SHARD_STATUS_SIGNER_COUNT"]}
{"id": "C30", "title": "Shard config upgrades are enacted exactly at their block", "statement": "After update_shard_config at block b with delay d on a shard that has a config, the config in effect is the previous one at every block before b+d and the new one from b+d on (b+d capped by the largest block number), as long as no other update is made; calls that lazily apply a due upgrade never change the config in effect now or in the future; the first config of a shard is in effect immediately.", "quantifier": "every shard, block, delay and later history without further updates", "why_tests_cant": "Temporal statement with lazy application at arbitrary points.", "anchors": ["enclave-bridge/src/lib.rs::update_shard_config", "enclave-bridge/src/lib.rs::get_maybe_updated_shard_config", "primitives/enclave-bridge/src/lib.rs::UpgradableShardConfig"]}
{"id": "C31", "title": "Only root or the shard's own enclaves can change its config", "statement": "The config of a shard that already has one changes only by a root call or by a call signed by a registered enclave whose measurement equals the fingerprint currently in effect for that shard.", "quantifier": "every history, shard and call", "why_tests_cant": "All calls of all pallets over all histories.", "anchors": ["enclave-bridge/src/lib.rs::update_shard_config"]}
{"id": "C32", "title": "Shard calls require the right registered enclave", "statement": "confirm_processed_parentchain_block, unshield_funds and confirm_imported_sidechain_block succeed only if the signer is in the sovereign registry and its measurement equals the fingerprint in effect for the shard (the shard id itself if it has no config).", "quantifier": "all states, origins and arguments", "why_tests_cant": "All inputs.", "anchors": ["enclave-bridge/src/lib.rs::get_sovereign_enclave_and_touch_shard", "sidechain/src/lib.rs::confirm_imported_sidechain_block"]}
{"id": "C33", "title": "Shielding and unshielding move exactly the stated amount", "statement": "A successful shield_funds moves exactly the amount from the sender to the shard's account and a paying unshield_funds exactly the amount from the shard's account to the beneficiary; no other account changes, and total issuance changes at most by existential-deposit dust of the paying account.", "quantifier": "all states, amounts and accounts, including self transfers and account deaths", "why_tests_cant": "All inputs and edge cases.", "anchors": ["enclave-bridge/src/lib.rs::shield_funds", "enclave-bridge/src/lib.rs::unshield_funds"]}
{"id": "C34", "title": "Accounts are only debited with their owner's consent", "statement": "The free balance of an account that is not the vault of a shard decreases only through calls signed by that account; the vault of a shard is only debited by enclaves running the code that was in effect for that shard from its beginning or legitimately upgraded.", "quantifier": "every account and history", "why_tests_cant": "Adversarial histories.", "anchors": ["enclave-bridge/src/lib.rs::unshield_funds", "enclave-bridge/src/lib.rs::update_shard_config"]}
{"id": "C35", "title": "publish_hash limits and topics", "statement": "publish_hash succeeds only for registered enclaves with at most 5 extra topics and at most 100 data bytes; the event carries the caller's measurement, also as the last topic after the extra topics.", "quantifier": "all inputs", "why_tests_cant": "All inputs.", "anchors": ["enclave-bridge/src/lib.rs::publish_hash"]}
{"id": "C36", "title": "Purging removes exactly the subject", "statement": "purge_enclave_from_shard_status is root-only, never panics, and removes exactly the entries of the subject, keeping all other entries and their order.", "quantifier": "all states", "why_tests_cant": "All inputs.", "anchors": ["enclave-bridge/src/lib.rs::purge_enclave_from_shard_status"]}
{"id": "C37", "title": "most_recent_shard_update returns a most recent entry", "statement": "It returns nothing exactly if the shard has no entries, and otherwise an entry of the status whose last activity is maximal (the last such one in status order).", "quantifier": "all statuses", "why_tests_cant": "All inputs.", "anchors": ["enclave-bridge/src/lib.rs::most_recent_shard_update"]}
{"id": "C38", "title": "Maintenance mode blocks state transitions", "statement": "While a shard's active config has maintenance_mode set, unshielding and block confirmation on this shard are refused.", "quantifier": "all states", "why_tests_cant": "Not tested at all.", "anchors": ["primitives/enclave-bridge/src/lib.rs::ShardConfig", "enclave-bridge/src/lib.rs::unshield_funds"]}
{"id": "C39", "title": "Finalized sidechain blocks form a growing linked chain", "statement": "Per shard, finalized block numbers strictly increase over time, every finalization after the first names as its ancestor exactly the number and hash of the block finalized before it, and the stored latest confirmation is always the last finalized block.", "quantifier": "every shard and history", "why_tests_cant": "Invariant over unbounded histories and interleaved shards.", "anchors": ["sidechain/src/lib.rs::confirm_imported_sidechain_block", "sidechain/src/lib.rs::finalize_block"]}
{"id": "C40", "title": "Only the shard's primary validateer finalizes", "statement": "A block is finalized only by a signer that is registered with the right fingerprint and is the first entry of the shard status after being touched; confirmations by other registered enclaves succeed without effect on finalization.", "quantifier": "all states", "why_tests_cant": "All inputs.", "anchors": ["sidechain/src/lib.rs::confirm_imported_sidechain_block"]}
{"id": "C41", "title": "Finalization can always continue", "statement": "Whenever some enclave with the right fingerprint is registered for a shard, there is a signed call that finalizes a next block.", "quantifier": "all reachable states", "why_tests_cant": "Liveness in all reachable states, including after the first validateer has been unregistered.", "anchors": ["sidechain/src/lib.rs::confirm_imported_sidechain_block", "enclave-bridge/src/lib.rs::touch_shard", "teerex/src/lib.rs::unregister_sovereign_enclave"]}
{"id": "C42", "title": "Sidechain confirmation never panics", "statement": "confirm_imported_sidechain_block never indexes an empty shard status, whatever was purged before.", "quantifier": "all states and inputs", "why_tests_cant": "All states.", "anchors": ["sidechain/src/lib.rs::confirm_imported_sidechain_block", "enclave-bridge/src/lib.rs::touch_shard", "enclave-bridge/src/lib.rs::purge_enclave_from_shard_status"]}
{"id": "C43", "title": "Oracle whitelists are duplicate free, bounded and root controlled", "statement": "Every data source's whitelist has no duplicate fingerprints and at most MaxWhitelistedReleases entries, and it changes only by root calls; removal really removes.", "quantifier": "every history", "why_tests_cant": "Invariant.", "anchors": ["teeracle/src/lib.rs::add_to_whitelist", "teeracle/src/lib.rs::remove_from_whitelist"]}
{"id": "C44", "title": "Oracle data is only written by whitelisted enclaves", "statement": "Exchange rates and oracle blobs of a data source change only through a call signed by a registered enclave whose measurement is whitelisted for that source at that time; other sources and pairs are untouched.", "quantifier": "every history and call of every pallet", "why_tests_cant": "All histories and calls.", "anchors": ["teeracle/src/lib.rs::update_oracle", "teeracle/src/lib.rs::update_exchange_rate"]}
{"id": "C45", "title": "Oracle storage keys and values are bounded", "statement": "Every stored exchange rate has a trading pair of at most 11 bytes and a data source of at most 40 bytes although update_exchange_rate never checks the latter; every stored blob has name and source of at most 40 bytes and size at most MaxOracleBlobLen.", "quantifier": "every history", "why_tests_cant": "Follows only from an invariant relating two calls.", "anchors": ["teeracle/src/lib.rs::update_exchange_rate", "teeracle/src/lib.rs::update_oracle", "teeracle/src/lib.rs::add_to_whitelist"]}
{"id": "C46", "title": "Zero exchange rates are never stored", "statement": "No stored exchange rate is zero; reading a deleted or never set rate gives zero; after an update the rate read back is the submitted value, or zero for None.", "quantifier": "every history", "why_tests_cant": "Invariant plus read-your-writes.", "anchors": ["teeracle/src/lib.rs::update_exchange_rate"]}
{"id": "C47", "title": "Claims accounting is conserved", "statement": "At any time, the recorded total plus everything paid out so far equals the genesis total plus everything minted, as long as that sum fits into the balance type or the runtime is built with overflow checks (without checks: modulo the size of the type).", "quantifier": "every history of claim, claim_attest, attest, mint_claim and move_claim", "why_tests_cant": "Conservation over unbounded histories.", "anchors": ["claims/src/lib.rs::process_claim", "claims/src/lib.rs::mint_claim", "claims/src/lib.rs::move_claim"]}
{"id": "C48", "title": "The claims pot is always solvent", "statement": "The sum of all open claims never exceeds the recorded total, so a claim never fails with PotUnderflow (as long as genesis total and minted amounts fit into the balance type, or overflow is checked).", "quantifier": "every history and every finite set of addresses", "why_tests_cant": "Invariant over unbounded sums.", "anchors": ["claims/src/lib.rs::process_claim", "claims/src/lib.rs::mint_claim"]}
{"id": "C49", "title": "Total equals the sum of open claims", "statement": "The recorded total always equals the sum of all open claims.", "quantifier": "every history", "why_tests_cant": "Depends on overwriting mints and moves.", "anchors": ["claims/src/lib.rs::mint_claim", "claims/src/lib.rs::move_claim", "claims/src/lib.rs::GenesisConfig"]}
{"id": "C50", "title": "A claim is paid at most once and in full", "statement": "A successful claim pays exactly the recorded amount, removes claim, vesting and statement of the signer, and afterwards no claim for this address succeeds until root mints or moves a claim to it.", "quantifier": "every history", "why_tests_cant": "At-most-once over unbounded histories.", "anchors": ["claims/src/lib.rs::process_claim", "claims/src/lib.rs::claim", "claims/src/lib.rs::claim_attest", "claims/src/lib.rs::attest"]}
{"id": "C51", "title": "Claim messages are unambiguous", "statement": "The Ethereum message signed for a claim is the standard personal-sign header, the decimal length of the payload, then prefix, hex account and statement; different destination accounts or statements give different messages, so a signature cannot be redirected.", "quantifier": "all prefixes, accounts and statements", "why_tests_cant": "Injectivity over all byte strings.", "anchors": ["claims/src/lib.rs::ethereum_signable_message", "claims/src/lib.rs::to_ascii_hex", "claims/src/lib.rs::eth_recover"]}
{"id": "C52", "title": "Validated unsigned claims do not fail for a reason that was validated", "statement": "If validate_unsigned accepts a claim or claim_attest in a state, dispatching it in the same state does not fail because of signature, missing claim or statement; and validate_unsigned rejects every other call.", "quantifier": "all states and calls", "why_tests_cant": "All states.", "anchors": ["claims/src/lib.rs::validate_unsigned", "claims/src/lib.rs::claim", "claims/src/lib.rs::claim_attest"]}
{"id": "C53", "title": "A required statement cannot be bypassed", "statement": "If a statement kind is recorded for an Ethereum address, then a claim of this address is only paid if exactly the text of that statement was part of the signed message (claim_attest) or submitted by the preclaimed account (attest).", "quantifier": "all states and calls", "why_tests_cant": "All inputs.", "anchors": ["claims/src/lib.rs::claim", "claims/src/lib.rs::claim_attest", "claims/src/lib.rs::attest", "primitives/claims/src/lib.rs::StatementKind::to_text"]}
{"id": "C54", "title": "Moving a claim preserves it", "statement": "move_claim needs root or the configured origin, transfers amount, vesting and statement unchanged to the new address, leaves nothing at the old one, and only redirects a preclaim that pointed to the old address.", "quantifier": "all states and address pairs, including equal addresses", "why_tests_cant": "All inputs.", "anchors": ["claims/src/lib.rs::move_claim"]}
{"id": "C55", "title": "Claiming never panics", "statement": "Whatever claims, vesting schedules and statements root has recorded, submitting a valid claim never panics the runtime.", "quantifier": "all states", "why_tests_cant": "The expect in process_claim relies on the vesting pallet never refusing a schedule.", "anchors": ["claims/src/lib.rs::process_claim"]}
{"id": "C56", "title": "Prevalidated attests succeed", "statement": "If PrevalidateAttests accepts an attest call (which is free of charge), then dispatching it pays out the claim, so free transactions cannot be used to spam the chain.", "quantifier": "all reachable states", "why_tests_cant": "Depends on earlier calls leaving stale preclaims behind.", "anchors": ["claims/src/lib.rs::PrevalidateAttests::validate", "claims/src/lib.rs::attest"]}
{"id": "C57", "title": "Paid out claims arrive", "statement": "A successful claim increases the destination's free balance by exactly the claimed amount.", "quantifier": "all states and amounts", "why_tests_cant": "Tests use an existential deposit of 1.", "anchors": ["claims/src/lib.rs::process_claim"]}
{"id": "C58", "title": "Asset id and location maps are mutually inverse", "statement": "An asset id maps to a location exactly if this location maps back to the asset id.", "quantifier": "every history of register and unregister", "why_tests_cant": "Two registrations of the same location are never tested.", "anchors": ["asset-registry/src/lib.rs::register_reserve_asset", "asset-registry/src/lib.rs::unregister_reserve_asset"]}
{"id": "C59", "title": "Only valid locations of existing assets get registered", "statement": "Registration succeeds exactly if the origin is authorized, the asset exists, its id is not yet registered and the location ends in an account, pallet instance, parachain, nothing, or a general index directly below a pallet instance.", "quantifier": "all locations", "why_tests_cant": "All inputs.", "anchors": ["asset-registry/src/lib.rs::register_reserve_asset", "asset-registry/src/lib.rs::valid_asset_location"]}
{"id": "C60", "title": "Slot swap only for the configured pair", "statement": "send_swap_ump sends exactly one message and only if the origin is authorized and the two para ids are the two distinct configured ids; transport errors leave no event.", "quantifier": "all ids, origins and configurations", "why_tests_cant": "All inputs.", "anchors": ["xcm-transactor/src/lib.rs::send_swap_ump"]}
{"id": "C61", "title": "Relay call encoding is the registrar swap call", "statement": "The encoded relay call is exactly pallet index 70, call index 3 and the two little-endian 32-bit ids, and decodes to the same ids; different id pairs give different bytes.", "quantifier": "all 32-bit ids", "why_tests_cant": "All inputs.", "anchors": ["primitives/xcm-transactor/src/lib.rs::RelayCallBuilder::swap_call", "primitives/xcm-transactor/src/lib.rs::construct_transact_xcm"]}
{"id": "C62", "title": "The swap program cannot strand its fee", "statement": "The XCM program withdraws exactly the fee, buys execution with exactly that asset, transacts with the requested weight limit, refunds and deposits everything left to the own parachain's account.", "quantifier": "all fees, weights and ids", "why_tests_cant": "All inputs.", "anchors": ["primitives/xcm-transactor/src/lib.rs::construct_transact_xcm"]}
{"id": "C63", "title": "Dropped assets are trapped exactly when worth keeping", "statement": "Of the assets left in holding, exactly those fungibles are passed on to the trap that are registered with amount at least the asset's minimum balance (any amount if the asset no longer exists), or are the native asset with amount at least the existential deposit; amounts are unchanged.", "quantifier": "all holdings and registries", "why_tests_cant": "All inputs, including amounts beyond the balance type.", "anchors": ["primitives/xcm/src/lib.rs::IntegriteeDropAssets::drop_assets"]}
{"id": "C64", "title": "Asset matching follows the registry", "statement": "matches_fungibles returns an asset id and amount exactly if the asset is fungible, its location is registered and the amount fits the balance type, and the id is the registered one.", "quantifier": "all assets", "why_tests_cant": "All inputs.", "anchors": ["primitives/xcm/src/lib.rs::ConvertedRegisteredAssetId::matches_fungibles", "primitives/xcm/src/lib.rs::AsAssetLocation"]}
{"id": "C65", "title": "Storage migrations run once and preserve the debug flag", "statement": "Running the v0-to-v1 and v1-to-v2 migrations from version 0 ends in version 2 with all old enclaves and TCB infos purged and the debug flag carried over; from version 1 or 2 nothing newer is touched; running them again at any later time changes nothing and the version never decreases.", "quantifier": "all storages and numbers of repetitions", "why_tests_cant": "All initial storages.", "anchors": ["teerex/src/migrations.rs::v1::MigrateV0toV1", "teerex/src/migrations.rs::v2::MigrateV1toV2"]}
{"id": "C66", "title": "Opaque signers are injective and panic free", "statement": "Converting a 32-byte or 64-byte key to a signer never panics, always yields 66 bytes, and different keys of the same size yield different signers.", "quantifier": "all keys", "why_tests_cant": "All inputs.", "anchors": ["primitives/common/src/lib.rs::AnySigner"]}
{"id": "C67", "title": "DER helpers parse what they claim", "statement": "Extracting FMSPC, CPU SVN and PCE SVN from a certificate extension never panics and, for an extension in which the bytes of the object identifier first occur in front of a value of the expected size (6 bytes, 16 bytes, or an integer of one or two content bytes), returns exactly this value; the length helper returns the right length for short form and two-byte long form lengths.", "quantifier": "all byte strings", "why_tests_cant": "All inputs.", "anchors": ["teerex/sgx-verify/src/lib.rs::get_fmspc", "teerex/sgx-verify/src/lib.rs::get_cpusvn", "teerex/sgx-verify/src/lib.rs::get_pcesvn", "teerex/sgx-verify/src/utils.rs::length_from_raw_data"]}
{"id": "C68", "title": "Failed calls have no effect and pallets do not interfere", "statement": "A failing extrinsic changes nothing, and leaving all that failed out of a history changes neither the final state nor what succeeds; a successful one changes only the storage of its own pallet and the pallets it is documented to use (bridge: currency; sidechain: bridge; claims: currency and vesting; teerdays: locks).", "quantifier": "all calls and states", "why_tests_cant": "Frame conditions over all calls.", "anchors": ["*/src/lib.rs call blocks"]}
{"id": "C69", "title": "Only the documented calls create or destroy money", "statement": "Total issuance only increases by paid-out claims and only decreases by existential-deposit dust; the sum of the balances of any set of accounts never exceeds total issuance.", "quantifier": "every history of pallet calls", "why_tests_cant": "Conservation over unbounded histories.", "anchors": ["claims/src/lib.rs::process_claim", "enclave-bridge/src/lib.rs::shield_funds", "enclave-bridge/src/lib.rs::unshield_funds"]}
{"id": "C70", "title": "The IAS signing certificate is valid when it is used", "statement": "An IAS registration is accepted only if the certificate that signed the report is valid at the time of registration.", "quantifier": "every IAS proof and registration time", "why_tests_cant": "The check has to hold for every later time; a test only sees the day it was written for.", "anchors": ["teerex/sgx-verify/src/lib.rs::verify_ias_report", "teerex/sgx-verify/src/lib.rs::verify_server_cert", "teerex/sgx-verify/src/lib.rs::SgxReportBody"]}
{"id": "C71", "title": "Enclaves on out-of-date or revoked platforms are not registered", "statement": "No enclave whose attestation says that its platform is out of date or revoked is in the registry; at least the status in the registry is the one that was attested.", "quantifier": "every history and platform", "why_tests_cant": "All histories and all contents of collateral.", "anchors": ["teerex/src/lib.rs::register_sgx_enclave", "teerex/src/lib.rs::verify_dcap_quote", "primitives/teerex/src/lib.rs::SgxTcbInfoOnChain::verify_examinee"]}
{"id": "C72", "title": "A stale DCAP attestation cannot be used again", "statement": "Once an enclave registered with a DCAP quote has been removed for being stale, the same quote cannot be registered again.", "quantifier": "every quote and every later history", "why_tests_cant": "Replay may happen arbitrarily later, after any history.", "anchors": ["teerex/src/lib.rs::register_sgx_enclave", "teerex/sgx-verify/src/lib.rs::verify_dcap_quote"]}
{"id": "C73", "title": "Signatures are re-encoded faithfully", "statement": "Encoding a raw 64-byte ECDSA signature as DER succeeds for every 64-byte input and no other length, gives at most 72 bytes, is the minimal DER encoding of the two big-endian numbers, and different signatures give different encodings.", "quantifier": "all byte strings", "why_tests_cant": "All 2^512 signatures, including those with leading zero bytes or a set top bit.", "anchors": ["teerex/sgx-verify/src/lib.rs::encode_as_der", "teerex/sgx-verify/src/lib.rs::lib"]}
{"id": "C74", "title": "Shards do not interfere", "statement": "What happens on one shard (unshielding, confirmations, shielding) never affects calls, counters or configuration of another shard.", "quantifier": "all shards, calls and histories", "why_tests_cant": "Interference may need an arbitrary earlier history on the other shard.", "anchors": ["enclave-bridge/src/lib.rs::unshield_funds", "enclave-bridge/src/lib.rs::ExecutedUnshieldCalls", "enclave-bridge/src/lib.rs::ShardStatus"]}
{"id": "C75", "title": "Certificate chains are split exactly at the PEM markers", "statement": "Extracting certificates from a PEM text that lists any number of certificates in the standard armour returns exactly the decoded bodies, in order.", "quantifier": "all lists of certificate bodies", "why_tests_cant": "All numbers and contents of certificates.", "anchors": ["teerex/sgx-verify/src/lib.rs::extract_certs"]}
{"id": "C76", "title": "An accepted IAS report is authentic", "statement": "verify_ias_report accepts a certificate exactly if its Netscape comment contains a report, signature and signing certificate such that the signature verifies and the certificate is anchored at Intel, and it returns exactly the timestamp, status, measurement, signer, report data and debug flag of the signed report.", "quantifier": "all byte strings", "why_tests_cant": "All inputs; offsets and separators could be wrong for rare lengths.", "anchors": ["teerex/sgx-verify/src/lib.rs::verify_ias_report", "teerex/sgx-verify/src/lib.rs::parse_report", "teerex/sgx-verify/src/netscape_comment.rs::NetscapeComment", "teerex/sgx-verify/src/utils.rs::length_from_raw_data"]}
{"id": "C77", "title": "Registering collateral never panics", "statement": "Registering TCB info or a quoting enclave identity returns a result for every input and never panics.", "quantifier": "all inputs and times", "why_tests_cant": "All inputs, including dates before 1970 and times beyond the range of the date type.", "anchors": ["teerex/src/lib.rs::register_tcb_info", "teerex/src/lib.rs::register_quoting_enclave", "teerex/sgx-verify/src/collateral.rs::TcbInfo::to_chain_tcb_info", "teerex/sgx-verify/src/collateral.rs::EnclaveIdentity::to_quoting_enclave", "teerex/sgx-verify/src/lib.rs::deserialize_tcb_info", "teerex/sgx-verify/src/lib.rs::deserialize_enclave_identity"]}
{"id": "C78", "title": "The enclaves of a shard can always act", "statement": "A registered enclave running the code in effect for a shard can always report progress for this shard.", "quantifier": "all histories, enclaves and shards", "why_tests_cant": "Needs arbitrary histories with many signers.", "anchors": ["enclave-bridge/src/lib.rs::get_sovereign_enclave_and_touch_shard", "enclave-bridge/src/lib.rs::touch_shard", "enclave-bridge/src/lib.rs::confirm_processed_parentchain_block"]}
{"id": "C79", "title": "Only its own code configures a shard first", "statement": "The first configuration of a shard is set by root or by an enclave whose measurement is the shard identifier.", "quantifier": "all states, callers and shards", "why_tests_cant": "All states in which the shard has no configuration.", "anchors": ["enclave-bridge/src/lib.rs::update_shard_config", "enclave-bridge/src/lib.rs::get_maybe_updated_shard_config"]}
{"id": "C80", "title": "Unsigned claims accepted by the pool are paid", "statement": "If the transaction pool accepts an unsigned claim, then dispatching it in the same state pays out the claim.", "quantifier": "all states and calls", "why_tests_cant": "Needs all combinations of recorded vesting and the destination's schedules.", "anchors": ["claims/src/lib.rs::validate_unsigned", "claims/src/lib.rs::process_claim"]}
{"id": "C81", "title": "Minting records what root asked for", "statement": "After mint_claim the amount, vesting schedule and required statement of the address are those given in the call, and no other address is affected.", "quantifier": "all states and arguments", "why_tests_cant": "Depends on what was recorded for the address before.", "anchors": ["claims/src/lib.rs::mint_claim"]}
{"id": "C82", "title": "Minting beyond the balance range is refused", "statement": "mint_claim with an amount that makes the total exceed the range of the balance type returns an error and changes nothing.", "quantifier": "all states and amounts", "why_tests_cant": "All states; the boundary is far away from test values.", "anchors": ["claims/src/lib.rs::mint_claim"]}
{"id": "C83", "title": "The swap message performs the swap on the relay chain", "statement": "The message sent by send_swap_ump, executed on the relay chain with enough fees, reaches its Transact instruction and dispatches the swap call.", "quantifier": "all runtime configurations, sovereign balances and fees", "why_tests_cant": "Needs the semantics of another chain, which resolves all locations relative to itself.", "anchors": ["primitives/xcm-transactor/src/lib.rs::construct_transact_xcm", "xcm-transactor/src/lib.rs::send_swap_ump"]}
{"id": "C84", "title": "Each migration runs only on the version it is written for", "statement": "The v1-to-v2 migration changes nothing on a chain that is still at version 0.", "quantifier": "all storages", "why_tests_cant": "All initial storages and all ways to compose an upgrade.", "anchors": ["teerex/src/migrations.rs::v2::MigrateV1toV2"]}
{"id": "C85", "title": "Every DER length is decoded", "statement": "The length helper returns the encoded length, and the position of its last byte, for every length below 2^24 in DER encoding, whatever surrounds it.", "quantifier": "all lengths, prefixes and suffixes", "why_tests_cant": "All lengths; tests use lengths that occur in one certificate.", "anchors": ["teerex/sgx-verify/src/utils.rs::length_from_raw_data"]}
{"id": "C86", "title": "Reading the TCB info of a quote never panics", "statement": "Extracting FMSPC and TCB versions from the bytes of a DCAP quote returns a result for every input and never panics.", "quantifier": "all byte strings", "why_tests_cant": "All inputs, including quotes without any certificate.", "anchors": ["teerex/sgx-verify/src/lib.rs::extract_tcb_info_from_raw_dcap_quote"]}
{"id": "C87", "title": "Nobody can stop an account from leaving", "statement": "Whatever other accounts, root and the passing of time do, an account with a bond and nothing pending can unbond all of it, and after the unlock period and any further foreign operations it can withdraw; then it has neither bond nor pending unlock, and its teerdays lock is smaller by the whole bond. From every state, by its own calls and waiting alone, an account can reach a state with neither bond nor pending unlock in which none of its money is locked by teerdays (times must fit their type).", "quantifier": "all histories of operations of other accounts between the steps, all amounts", "why_tests_cant": "All interleavings with all operations of all other pallets and accounts.", "anchors": ["teerdays/src/lib.rs::unbond", "teerdays/src/lib.rs::withdraw_unbonded", "teerdays/src/lib.rs::bond"]}
{"id": "C88", "title": "Bonds of different accounts are independent of each other and of the schedule", "statement": "The bond, pending unlock and lock of an account after a history of teerdays operations depend only on its own operations and the blocks in it; operations of different accounts can be reordered freely.", "quantifier": "all histories and all their reorderings that keep the order of each account's operations", "why_tests_cant": "All schedules.", "anchors": ["teerdays/src/lib.rs::bond", "teerdays/src/lib.rs::unbond", "teerdays/src/lib.rs::update_other", "teerdays/src/lib.rs::withdraw_unbonded"]}
{"id": "C89", "title": "The text form of an Ethereum address is unambiguous", "statement": "An address is written as 0x and 40 lower case hexadecimal digits; exactly the 40 digits of the address, in any letter case and with or without 0x, are read as that address; what was written is read back.", "quantifier": "all addresses and all texts", "why_tests_cant": "All texts; letter case and prefix combinations.", "anchors": ["primitives/claims/src/lib.rs::EthereumAddress::serialize", "primitives/claims/src/lib.rs::EthereumAddress::deserialize"]}
{"id": "C90", "title": "Reading an Ethereum address never panics", "statement": "Deserializing any text as an Ethereum address returns an address or an error.", "quantifier": "all texts", "why_tests_cant": "All texts, including those with blanks that the hexadecimal decoder skips.", "anchors": ["primitives/claims/src/lib.rs::EthereumAddress::deserialize"]}
{"id": "C91", "title": "Collateral that was written is read back unchanged", "statement": "Serializing a TCB info or an enclave identity and deserializing the result gives the same value, for any date format that can be read back.", "quantifier": "all TCB infos and identities", "why_tests_cant": "All values, with any number of levels and optional members.", "anchors": ["teerex/sgx-verify/src/collateral.rs::TcbInfo", "teerex/sgx-verify/src/collateral.rs::EnclaveIdentity", "teerex/sgx-verify/src/collateral.rs::serialize_to_hex", "teerex/sgx-verify/src/collateral.rs::deserialize_from_hex"]}
{"id": "C92", "title": "Order of members and unknown members of collateral do not matter", "statement": "Two signed collateral texts that differ only in the order of object members and in additional members unknown to the code are read as the same value and registering them has the same effect. The same holds for an optional member (advisories, category, type) that is null instead of left out. A signed document in which a member that the code reads is given twice, in the document itself or in a level, is refused.", "quantifier": "all documents, at any nesting depth", "why_tests_cant": "All permutations and extensions at all depths.", "anchors": ["teerex/sgx-verify/src/collateral.rs::TcbInfo", "teerex/sgx-verify/src/collateral.rs::EnclaveIdentity", "teerex/src/lib.rs::register_tcb_info", "teerex/src/lib.rs::register_quoting_enclave"]}
{"id": "C93", "title": "Every TCB info published by Intel can be registered", "statement": "A TCB info with documented status values and numbers in range, within its update period and signed by Intel, is accepted from any signed origin, whether or not it also has advisories, categories and types of components, or members that the code does not know.", "quantifier": "all documents, states and senders", "why_tests_cant": "All documents; the recorded ones in the tests contain only some status values.", "anchors": ["teerex/src/lib.rs::register_tcb_info", "teerex/sgx-verify/src/collateral.rs::TcbInfo", "primitives/teerex/src/lib.rs::TcbStatus"]}
{"id": "C94", "title": "A registered TCB info is stored as published", "statement": "After registering a document, the entry for its FMSPC has exactly the dates, component versions, PCE versions and status names of the document, in the same order, whatever other members the document has; numbers out of range are never truncated.", "quantifier": "all documents with any integers", "why_tests_cant": "All integers and lists.", "anchors": ["teerex/src/lib.rs::register_tcb_info", "teerex/sgx-verify/src/collateral.rs::TcbInfo::to_chain_tcb_info", "teerex/sgx-verify/src/collateral.rs::TcbLevelFull"]}
{"id": "C95", "title": "Every identity of the quoting enclave published by Intel can be registered and is stored as published", "statement": "A signed identity document within its update period is accepted from any signed origin, whether or not it also has advisories or members that the code does not know, and the stored entry has exactly the values of the document.", "quantifier": "all documents, states and senders", "why_tests_cant": "All documents.", "anchors": ["teerex/src/lib.rs::register_quoting_enclave", "teerex/sgx-verify/src/collateral.rs::EnclaveIdentity::to_quoting_enclave"]}
{"id": "C96", "title": "A transaction whose call fails costs a fee", "statement": "Every transaction that is included in a block and whose call returns an error costs its sender a fee, so that nobody can fill blocks with failing transactions for free. (False for the code: purge_enclave_from_shard_status is declared free for everybody although it is a root call; an attest with a stale preclaim and an unsigned claim that the pool accepts may also fail for free. The partial result lists exactly these three kinds.)", "quantifier": "all states, all signed and unsigned transactions of all calls", "why_tests_cant": "A test checks the fee of one call in one state; the statement is about every failing transaction of every call.", "anchors": ["enclave-bridge/src/lib.rs::purge_enclave_from_shard_status", "claims/src/lib.rs::attest", "claims/src/lib.rs::move_claim", "claims/src/lib.rs::PrevalidateAttests", "claims/src/lib.rs::validate_unsigned"]}
{"id": "C97", "title": "Free transactions only collect or move claims", "statement": "A transaction without fee has no effect at all, or collects one open claim (with a signature of its Ethereum key or by the account recorded as its preclaimer), or moves a claim on behalf of an account allowed to move claims. An account without preclaim and without that right pays for every signed transaction except a refused purge.", "quantifier": "all states, all signed and unsigned transactions of all calls", "why_tests_cant": "Requires the fee declarations of all calls together with all conditions under which they succeed.", "anchors": ["claims/src/lib.rs::attest", "claims/src/lib.rs::move_claim", "claims/src/lib.rs::claim", "claims/src/lib.rs::claim_attest", "enclave-bridge/src/lib.rs::purge_enclave_from_shard_status"]}
{"id": "C98", "title": "Balances follow from the accepted operations", "statement": "In every history the balance of an account is what it was, plus what accepted transfers, shieldings, unshieldings, claims and mints brought, minus what accepted transfers, shieldings, unshieldings and slashes took: never more, and never less except for less than an existential deposit for each movement (burned remainders, payments too small to create the account).", "quantifier": "all histories of all operations, all accounts; the lower bound for amounts that fit into the balance type", "why_tests_cant": "It is a statement about sums over histories of arbitrary length with all pallets interleaved.", "anchors": ["enclave-bridge/src/lib.rs::shield_funds", "enclave-bridge/src/lib.rs::unshield_funds", "claims/src/lib.rs::process_claim", "teerdays/src/lib.rs::bond"]}
{"id": "C99", "title": "A vault pays out what was paid in", "statement": "In every history the sum of the amounts of all UnshieldedFunds events of a shard plus the balance of its vault is at most what was in the vault at the beginning plus the sum of all ShieldFunds events of the shard (plus payments to the vault from elsewhere). If nobody has the key of the vault and it is not slashed, it is also at least that, except for less than an existential deposit per movement.", "quantifier": "all histories of all operations, all shards", "why_tests_cant": "It is an accounting invariant over histories of arbitrary length, with several enclaves, repeated confirmations and other shards interleaved.", "anchors": ["enclave-bridge/src/lib.rs::shield_funds", "enclave-bridge/src/lib.rs::unshield_funds"]}
{"id": "C100", "title": "Withdrawing a permission ends the registrations that need it", "statement": "Once root has withdrawn the permission for unattested enclaves (or debug enclaves), no such enclave is registered. (False in full: existing registrations stay. What holds: none is added or renewed, and each can be removed by anybody once the renewal period has passed since the withdrawal.)", "quantifier": "all histories starting without enclaves, all accounts, sovereign and proxied enclaves", "why_tests_cant": "It concerns registrations made at any time before the withdrawal and anything that happens after it.", "anchors": ["teerex/src/lib.rs::set_security_flags", "teerex/src/lib.rs::register_sgx_enclave", "teerex/src/lib.rs::unregister_sovereign_enclave", "teerex/src/lib.rs::unregister_proxied_enclave"]}
{"id": "C101", "title": "Enclaves act only while their attestation is fresh", "statement": "A call that only registered enclaves may make succeeds only within the renewal period after the attestation of the caller. (False in full: staleness is not looked at by these calls. What holds: anybody can remove a stale enclave, and then every such call of its account is refused, in every continuation, until it registers again.)", "quantifier": "all states, all accounts, all such calls of enclave-bridge, sidechain and teeracle, all continuations", "why_tests_cant": "It quantifies over all continuations after a removal and over the calls of three pallets.", "anchors": ["teerex/src/lib.rs::unregister_sovereign_enclave", "enclave-bridge/src/lib.rs::confirm_processed_parentchain_block", "enclave-bridge/src/lib.rs::unshield_funds", "enclave-bridge/src/lib.rs::publish_hash", "sidechain/src/lib.rs::confirm_imported_sidechain_block", "teeracle/src/lib.rs::update_oracle", "teeracle/src/lib.rs::update_exchange_rate"]}
{"id": "C102", "title": "The status of a shard lists enclaves that run its code", "statement": "Every entry in the status of a shard names the code in effect for the shard. (False in full: entries stay when the code is upgraded. What holds: each entry goes back to an accepted call of its signer in the block it names, when the signer was registered with the measurement it names and either that was the code in effect, or the call gave the shard its first configuration, or it published a hash and the shard is named after the measurement.)", "quantifier": "all histories from a fresh bridge, all shards, all entries", "why_tests_cant": "Entries come from six different calls made in any order with configuration changes in between.", "anchors": ["enclave-bridge/src/lib.rs::touch_shard", "enclave-bridge/src/lib.rs::update_shard_config", "enclave-bridge/src/lib.rs::publish_hash", "sidechain/src/lib.rs::confirm_imported_sidechain_block"]}
{"id": "C103", "title": "A claim signature is good for one payout", "statement": "After a signature was redeemed with claim or claim_attest, submitting it again fails for ever. (False in full: when a second claim is minted for the same Ethereum address, anybody can submit the old signature again. What holds: the payout goes to the account in the signed message, and the submission is refused in every continuation without a new claim for the address.)", "quantifier": "all states, signatures, destinations, statements, all continuations", "why_tests_cant": "It is about every continuation of a history, and about every signature.", "anchors": ["claims/src/lib.rs::claim", "claims/src/lib.rs::claim_attest", "claims/src/lib.rs::process_claim", "claims/src/lib.rs::mint_claim", "claims/src/lib.rs::move_claim"]}
{"id": "C104", "title": "Funds go only into shards that exist", "statement": "shield_funds is refused for a shard that has neither a configuration nor a status. (False in full: it is accepted for any identifier. What holds: money in the vault of a shard that never gets a configuration, while no enclave with the shard id as measurement is registered, is never taken out.)", "quantifier": "all states and histories, all shard identifiers, all amounts", "why_tests_cant": "It is about all identifiers and all continuations with all pallets interleaved.", "anchors": ["enclave-bridge/src/lib.rs::shield_funds", "enclave-bridge/src/lib.rs::unshield_funds", "enclave-bridge/src/lib.rs::update_shard_config"]}
{"id": "C105", "title": "Exactly when each call succeeds", "statement": "For every call of every pallet there is a readable list of conditions on the caller, the arguments and the storage (Spec/Accept.lean), and in every state of every history the call succeeds if and only if they hold: nothing else makes a call fail, and nothing less makes it succeed.", "quantifier": "all states of all histories from a fresh bridge, all origins, all calls with all arguments", "why_tests_cant": "It is an equivalence over all states and arguments, for all calls; tests try single refusals and single successes.", "anchors": ["teerdays/src/lib.rs::bond", "teerdays/src/lib.rs::bond_extra", "teerdays/src/lib.rs::unbond", "teerdays/src/lib.rs::withdraw_unbonded", "teerex/src/lib.rs::register_sgx_enclave", "teerex/src/lib.rs::register_tcb_info", "enclave-bridge/src/lib.rs::unshield_funds", "enclave-bridge/src/lib.rs::publish_hash", "enclave-bridge/src/lib.rs::update_shard_config", "sidechain/src/lib.rs::confirm_imported_sidechain_block", "teeracle/src/lib.rs::update_oracle", "claims/src/lib.rs::process_claim", "claims/src/lib.rs::attest", "asset-registry/src/lib.rs::register_reserve_asset", "xcm-transactor/src/lib.rs::send_swap_ump"]}
{"id": "C106", "title": "An account attests at most once", "statement": "In every history an account calls attest successfully at most once, and not at all unless a preclaim was made for it at genesis: no operation makes a preclaim for an account without one, and attesting uses it up.", "quantifier": "all histories of all operations, all accounts", "why_tests_cant": "It concerns all histories including mints and moves of claims between two attempts.", "anchors": ["claims/src/lib.rs::attest", "claims/src/lib.rs::move_claim", "claims/src/lib.rs::Preclaims"]}
{"id": "C107", "title": "Bonds follow from the events", "statement": "An observer who only reads the events of pallet teerdays knows, for every account and at every time, the value and the tokentime of its bond as last stored and the amount it is waiting to withdraw: folding the events gives exactly the storage.", "quantifier": "all histories from a started chain, all accounts", "why_tests_cant": "It relates the whole event stream to the storage after every history; tests look at single events.", "anchors": ["teerdays/src/lib.rs::Event", "teerdays/src/lib.rs::bond", "teerdays/src/lib.rs::bond_extra", "teerdays/src/lib.rs::unbond", "teerdays/src/lib.rs::withdraw_unbonded", "teerdays/src/lib.rs::do_update_teerdays"]}
{"id": "C108", "title": "The enclave registry follows from the events", "statement": "An observer who only reads events can rebuild the registry of sovereign enclaves.", "quantifier": "all histories from a started chain", "why_tests_cant": "It says that two histories with the same events have the same registry, for all pairs of histories.", "anchors": ["teerex/src/lib.rs::Event::AddedSgxEnclave", "teerex/src/lib.rs::register_sgx_enclave", "teerex/src/lib.rs::unregister_sovereign_enclave"]}
{"id": "C109", "title": "Collateral and security flags follow from the events", "statement": "The stored TCB info of every platform, the stored quoting enclave and the two security flags are always those of the last event about them, and the genesis values before the first one.", "quantifier": "all histories from a started chain, all platform types", "why_tests_cant": "It concerns all histories; a call that writes without announcing, or announces something else, must not exist.", "anchors": ["teerex/src/lib.rs::Event", "teerex/src/lib.rs::register_tcb_info", "teerex/src/lib.rs::register_quoting_enclave", "teerex/src/lib.rs::set_security_flags"]}
{"id": "C110", "title": "Shard configurations follow from the events", "statement": "An observer who only reads events can rebuild the configuration of every shard.", "quantifier": "all histories from a started chain, all shards", "why_tests_cant": "It says that two histories with the same events have the same configurations.", "anchors": ["enclave-bridge/src/lib.rs::Event::ShardConfigUpdated", "enclave-bridge/src/lib.rs::update_shard_config"]}
{"id": "C111", "title": "Oracle whitelists and exchange rates follow from the events", "statement": "Folding the events of the oracle gives exactly the whitelist of every source, in order, and the last announced exchange rate (or deletion) of every pair and source is the stored one.", "quantifier": "all histories from a started chain, all sources and trading pairs", "why_tests_cant": "It relates the whole event stream to the storage after every history.", "anchors": ["teeracle/src/lib.rs::Event", "teeracle/src/lib.rs::add_to_whitelist", "teeracle/src/lib.rs::remove_from_whitelist", "teeracle/src/lib.rs::update_exchange_rate"]}
{"id": "C112", "title": "The asset registry follows from the events", "statement": "The location stored for every asset and the asset stored for every location are always the last ones announced, even when one location was registered for two assets.", "quantifier": "all histories from a started chain, all assets and locations", "why_tests_cant": "It relates the whole event stream to both maps after every history.", "anchors": ["asset-registry/src/lib.rs::Event", "asset-registry/src/lib.rs::register_reserve_asset", "asset-registry/src/lib.rs::unregister_reserve_asset"]}
{"id": "C113", "title": "Open claims follow from the events", "statement": "An observer who knows the claims at genesis and reads all events knows the open claims.", "quantifier": "all histories from a started chain, all Ethereum addresses", "why_tests_cant": "It says that two histories with the same events have the same claims.", "anchors": ["claims/src/lib.rs::Event::Claimed", "claims/src/lib.rs::mint_claim", "claims/src/lib.rs::move_claim", "claims/src/lib.rs::process_claim"]}
{"id": "C114", "title": "Swap messages follow from the events", "statement": "The swaps announced by events are exactly the calls sent to the relay chain, with the same two parachains, in the same order, and nothing else is ever sent.", "quantifier": "all histories from a started chain", "why_tests_cant": "It compares the sequence of all messages with the sequence of all events.", "anchors": ["xcm-transactor/src/lib.rs::send_swap_ump", "xcm-transactor/src/lib.rs::Event"]}
{"id": "C115", "title": "Every successful call announces itself", "statement": "Every successful call of these pallets emits at least one event.", "quantifier": "all states of all histories from a started chain, all origins, all calls with all arguments", "why_tests_cant": "It concerns every success path of every call.", "anchors": ["claims/src/lib.rs::mint_claim", "claims/src/lib.rs::move_claim", "enclave-bridge/src/lib.rs::unshield_funds", "sidechain/src/lib.rs::confirm_imported_sidechain_block"]}
{"id": "C116", "title": "Stored values read back unchanged", "statement": "Every value the pallets keep in storage (bonds, pending withdrawals, registered enclaves, addresses of proxied enclaves, the quoting enclave, platform levels, shard status, shard configuration, sidechain confirmations, vesting schedules, statement kinds) is stored with the byte layout that the documentation of its fields implies, and reading bytes yields a value exactly when they are the layout of a value whose numbers are in range: nothing that was written reads back differently, and no second byte string is accepted for a value.", "quantifier": "all values, all byte strings, all widths of balances, block numbers and times", "why_tests_cant": "Round trips in tests cover chosen values; unique readability concerns all byte strings.", "anchors": ["primitives/teerdays/src/lib.rs::TeerDayBond", "primitives/teerex/src/lib.rs::MultiEnclave", "primitives/teerex/src/lib.rs::SgxEnclave", "primitives/teerex/src/lib.rs::EnclaveInstanceAddress", "primitives/teerex/src/lib.rs::SgxQuotingEnclave", "primitives/teerex/src/lib.rs::SgxTcbInfoOnChain", "primitives/enclave-bridge/src/lib.rs::ShardSignerStatus", "primitives/enclave-bridge/src/lib.rs::UpgradableShardConfig", "primitives/claims/src/lib.rs::StatementKind"]}
{"id": "C117", "title": "The bytes of a transaction determine its call", "statement": "For each pallet: a call is read from the front of a transaction exactly when the bytes begin with the number of the call in its pallet followed by its arguments in order; arguments out of range, blobs longer than the configured maximum, unknown call numbers and compact amounts that are not in shortest form are refused. So a signed transaction can be read in one way only and different calls never have the same bytes.", "quantifier": "all calls of the eight pallets with dispatchable functions, all byte strings, all widths of the runtime's numbers", "why_tests_cant": "Tests dispatch calls as values and never read them from bytes; uniqueness is a statement on all byte strings.", "anchors": ["teerdays/src/lib.rs::Call", "teerex/src/lib.rs::Call", "enclave-bridge/src/lib.rs::Call", "sidechain/src/lib.rs::Call", "teeracle/src/lib.rs::Call", "claims/src/lib.rs::Call", "asset-registry/src/lib.rs::Call", "xcm-transactor/src/lib.rs::Call"]}
{"id": "C118", "title": "Storage entries never collide", "statement": "No storage key of the pallets is equal to, or the beginning of, the key of another entry, whatever the 16 byte key hash yields, as long as the fixed names of pallets and storage items hash differently. Nobody can hit someone else's entry by choosing an account, an enclave address, a shard, a data source or a location. The entries under the first key of the oracle's double maps are those of that trading pair or data name. Under the name of a pallet there is the storage of that pallet and nothing else.", "quantifier": "all pairs of storage entries, all keys in range, all hash functions of the keys", "why_tests_cant": "Collision freedom concerns all pairs of keys, also with colliding hashes.", "anchors": ["teerdays/src/lib.rs::TeerDayBonds", "teerex/src/lib.rs::SovereignEnclaves", "teerex/src/lib.rs::ProxiedEnclaves", "enclave-bridge/src/lib.rs::ShardStatus", "teeracle/src/lib.rs::ExchangeRates", "teeracle/src/lib.rs::OracleData", "claims/src/lib.rs::Claims", "asset-registry/src/lib.rs::AssetIdLocation"]}
{"id": "C119", "title": "Numbers stay in their range, so every entry can be read back", "statement": "After every history whose calls carry numbers within the declared widths, every number in the storage of the pallets is within the width of its field while the clock and the block number are, so no entry is cut off when it is stored: every stored entry reads back as the value the pallet worked with. This assumes of the parsers of Intel's documents only that dates fit in 63 bits and that vectors have less than 2^32 elements.", "quantifier": "all configurations with sane bounds, all started chains with values in range, all histories", "why_tests_cant": "Overflow of a field can need a long history of additions; tests cover short ones.", "anchors": ["teerdays/src/lib.rs::do_update_teerdays", "teerdays/src/lib.rs::bond_extra", "teerex/src/lib.rs::register_tcb_info", "enclave-bridge/src/lib.rs::update_shard_config", "enclave-bridge/src/lib.rs::unshield_funds", "claims/src/lib.rs::mint_claim", "teeracle/src/lib.rs::update_oracle"]}
{"id": "C120", "title": "Publishing pays for what was measured", "statement": "The weight charged for publishing a hash is at least what the benchmark measured for this number of data bytes and additional topics.", "quantifier": "all lists of topics and data within the limits, all costs of database accesses", "why_tests_cant": "Unit tests run with another weight function and do not compare weights; the swapped arguments only matter on chain.", "anchors": ["enclave-bridge/src/lib.rs::publish_hash", "enclave-bridge/src/weights.rs::publish_hash", "enclave-bridge/src/benchmarking.rs::publish_hash"]}
{"id": "C121", "title": "Calls change no more storage entries than they declare", "statement": "A successful call changes at most as many storage entries (of the pallets, accounts, locks, event topics) as the number of writes in its declared weight.", "quantifier": "all states, all origins, all calls with a weight in the repository, all arguments", "why_tests_cant": "Tests do not count storage writes; a benchmark measures one path only.", "anchors": ["enclave-bridge/src/lib.rs::unshield_funds", "enclave-bridge/src/lib.rs::shield_funds", "enclave-bridge/src/lib.rs::confirm_processed_parentchain_block", "sidechain/src/lib.rs::confirm_imported_sidechain_block", "teerex/src/lib.rs::set_security_flags", "enclave-bridge/src/lib.rs::publish_hash"]}
{"id": "C122", "title": "Events carry the data of their call", "statement": "Every successful call adds exactly the documented events, each with the caller, the arguments and the resulting values of that call, in the documented order, and nothing to the events of other pallets; what happens outside of calls adds none.", "quantifier": "all states, all origins, all calls with all arguments", "why_tests_cant": "Tests compare the events of chosen calls; this fixes all events of all calls in all states.", "anchors": ["teerdays/src/lib.rs::Event", "teerex/src/lib.rs::Event", "enclave-bridge/src/lib.rs::Event", "sidechain/src/lib.rs::Event", "teeracle/src/lib.rs::Event", "claims/src/lib.rs::Event", "asset-registry/src/lib.rs::Event", "xcm-transactor/src/lib.rs::Event"]}
{"id": "C123", "title": "The event of an unbonding states all tokentime that was lost", "statement": "The amount of burned tokentime in the event of an unbonding is the tokentime that the account had before and does not have afterwards.", "quantifier": "all states, all amounts, all accounts", "why_tests_cant": "The tests do not unbond an amount that leaves a rest below the existential deposit and then compare the event.", "anchors": ["teerdays/src/lib.rs::unbond", "teerdays/src/lib.rs::Event::Unbonded"]}
{"id": "C124", "title": "A successful call changes only the places that belong to it", "statement": "For every call there is a short list of places (the signer's bond, a shard, an account's money, ...) computable from the call, the origin and the state. After a successful call every other place - other accounts' bonds, pending withdrawals, balances, locks, schedules and enclaves, other shards, other oracle entries, the total issuance - is what it was before; the clock does not move either.", "quantifier": "all configurations, states, origins, calls and places", "why_tests_cant": "a test can compare a handful of other entries; that no entry whatsoever is touched, for any state, needs a proof", "anchors": ["teerdays/src/lib.rs::bond", "teerdays/src/lib.rs::withdraw_unbonded", "enclave-bridge/src/lib.rs::unshield_funds", "enclave-bridge/src/lib.rs::publish_hash", "claims/src/lib.rs::process_claim", "sidechain/src/lib.rs::confirm_imported_sidechain_block", "teerex/src/lib.rs::register_sgx_enclave"]}
{"id": "C125", "title": "The effect of a call depends only on the places listed for it", "statement": "If two states agree on the clock and on the places that a call is listed to change or consult, then the call succeeds in one exactly if it succeeds in the other, may change the same places in both, and leaves the same content in them; if it fails, it fails with the same error.", "quantifier": "all configurations, pairs of states, origins and calls", "why_tests_cant": "hidden dependencies on other entries show only in states that nobody thought of testing", "anchors": ["teerdays/src/lib.rs::bond_extra", "teerex/src/lib.rs::register_sgx_enclave", "enclave-bridge/src/lib.rs::get_sovereign_enclave_and_touch_shard", "teeracle/src/lib.rs::update_exchange_rate", "claims/src/lib.rs::process_claim"]}
{"id": "C126", "title": "Unrelated calls may be included in any order", "statement": "Two calls of which neither changes what the other one changes or consults can be included in either order: each succeeds, or fails with the same error, as it would have alone, and the storage ends up the same. A call cannot be made to fail or to do something else by any number of calls included before it in the same block, provided none of them changes what it looks at.", "quantifier": "all configurations, states, pairs of calls with any origins, and all lists of calls included before", "why_tests_cant": "block authors may order transactions at will; tests fix one order", "anchors": ["teerdays/src/lib.rs::bond", "enclave-bridge/src/lib.rs::unshield_funds", "enclave-bridge/src/lib.rs::publish_hash", "sidechain/src/lib.rs::confirm_imported_sidechain_block", "teerex/src/lib.rs::register_sgx_enclave"]}
{"id": "C127", "title": "Raw storage determines every entry", "statement": "Two states whose raw key-value storage is byte for byte the same agree in every entry of every pallet (bonds, enclaves, collateral, flags, shards, confirmations, oracle data, claims, assets); under one key there is never more than one value; and states agreeing in every entry have the same raw storage. So a state proof or a storage snapshot of these pallets says exactly what the pallets' own getters say.", "quantifier": "all pairs of states in range (all states reached from one in range are), all number widths of the runtime, all pallet names and hashes without collisions between names, all location encodings that can be read back", "why_tests_cant": "unit tests read storage through the typed getters and never compare raw storage of arbitrary pairs of states", "anchors": ["teerdays/src/lib.rs::TeerDayBonds", "teerex/src/lib.rs::SovereignEnclaves", "teerex/src/lib.rs::SgxTcbInfo", "enclave-bridge/src/lib.rs::ShardStatus", "enclave-bridge/src/lib.rs::ShardConfigRegistry", "sidechain/src/lib.rs::LatestSidechainBlockConfirmation", "teeracle/src/lib.rs::ExchangeRates", "claims/src/lib.rs::Claims", "asset-registry/src/lib.rs::AssetIdLocation"]}
{"id": "C128", "title": "Storage entries have a bounded size", "statement": "After any history no storage entry is larger than a bound known in advance: enclaves at most 400 bytes, shard status 1 + 10 * (64 + width of block numbers), oracle blobs and whitelists their configured maximum, everything else the width of its numbers. False for shard configurations: the owner of any registered enclave can store one of any size (authorities are an unbounded vector), and the collateral lists and locations are bounded only by their parsers.", "quantifier": "all histories from any state with short lists, all entries of all maps, all widths and configurations", "why_tests_cant": "unit tests store a few small values; the pallets disable the compile-time check (without_storage_info) that would bound entries", "anchors": ["teerex/src/lib.rs::SovereignEnclaves", "enclave-bridge/src/lib.rs::ShardStatus", "enclave-bridge/src/lib.rs::update_shard_config", "primitives/enclave-bridge/src/lib.rs::ShardConfig", "teeracle/src/lib.rs::Whitelists", "teeracle/src/lib.rs::OracleData"]}
{"id": "C129", "title": "The checks around the storage upgrades fit the upgrades", "statement": "With the upgrade checks enabled, the v0-to-v1 upgrade passes its checks on every chain, also where it is skipped. The v1-to-v2 upgrade is refused by its check unless the chain is at version 1, and then passes. From version 0 or 1 both in order end in version 2 without a failing check. Any state that the check after the first upgrade accepts either kept its version, or is at version 1, counts no old enclave and has the old debug flag. The check after the second upgrade accepts exactly the states at version 2 without any TCB info.", "quantifier": "all states of the storage touched by the upgrades, and for the guarantee all pairs of states before and after", "why_tests_cant": "the tests run three prepared storages; a check that fails on some live storage stops the release of an upgrade, and a check that passes wrongly hides a broken one", "anchors": ["teerex/src/migrations.rs::pre_upgrade", "teerex/src/migrations.rs::post_upgrade", "teerex/src/migrations.rs::on_runtime_upgrade"]}
{"id": "C130", "title": "Whatever an enclave does goes back to Intel or to root", "statement": "Starting without enclaves and collateral, whenever a call that only enclaves may make succeeds (confirming blocks, unshielding, publishing, configuring a shard, updating oracle data), the last accepted operation that concerned the enclave of its signer was a registration, for the measurement that the call demands, with one of: a report signed by Intel's attestation service, at most a day old; a quote whose quoting-enclave identity and TCB info were both registered before and were signed by Intel and valid then; or no evidence, after root allowed that. The report or quote names the signer's key. In terms of effects: oracle data change, sidechain blocks are finalised, money leaves a foreign account and the code of a shard changes only through such an enclave (or by root for the code of a shard).", "quantifier": "all configurations, all histories from any state without enclaves and collateral, all calls and operations", "why_tests_cant": "the chain of trust spans several transactions by different accounts in any order; tests check one link at a time with prepared storage", "anchors": ["teerex/src/lib.rs::register_sgx_enclave", "teerex/src/lib.rs::register_quoting_enclave", "teerex/src/lib.rs::register_tcb_info", "teerex/src/lib.rs::set_security_flags", "enclave-bridge/src/lib.rs::unshield_funds", "enclave-bridge/src/lib.rs::update_shard_config", "sidechain/src/lib.rs::confirm_imported_sidechain_block", "teeracle/src/lib.rs::update_exchange_rate", "teeracle/src/lib.rs::update_oracle"]}
{"id": "C131", "title": "Every claimed amount is open, paid or overwritten", "statement": "After any history, the amounts that were open at the start plus those minted since equal the amounts open now plus those paid out plus those of claims that were overwritten by minting for, or moving a claim to, an address that already had one. The recorded total exceeds the open claims by exactly what was overwritten, from genesis on including repeated genesis entries.", "quantifier": "all configurations, initial states with finitely many claims, and histories; for the recorded total, sums that fit into the balance type (or overflow checks)", "why_tests_cant": "a conservation law over arbitrary sequences of mints, moves and claims; tests follow a few fixed sequences", "anchors": ["claims/src/lib.rs::mint_claim", "claims/src/lib.rs::move_claim", "claims/src/lib.rs::process_claim", "claims/src/lib.rs::Total", "claims/src/lib.rs::Claims"]}
{"id": "C132", "title": "What the claims pallet starts with", "statement": "After genesis an address has the claim of the last entry that lists it, the statement of the last entry that lists it with a statement, and the last vesting schedule listed for it; an account has the preclaim of the last entry that names it. The total is the sum of all entries, so it exceeds the open claims by the amounts of entries followed by another one for the same address.", "quantifier": "all genesis configurations of any length, with any repetitions", "why_tests_cant": "tests build one genesis without repetitions", "anchors": ["claims/src/lib.rs::GenesisConfig", "claims/src/lib.rs::build"]}
{"id": "C133", "title": "Tokentime cannot be older than the bond", "statement": "Whoever has a bond has at most bonded value times the time since the account last called bond. Topping up a bond or unbonding a part of it never makes the tokens that stay bonded look older than the bond.", "quantifier": "all configurations, accounts and histories from any state in which the account has no bond", "why_tests_cant": "must hold for every interleaving of top-ups, partial unbondings and updates by third parties at arbitrary times", "anchors": ["teerdays/src/lib.rs::bond", "teerdays/src/lib.rs::bond_extra", "teerdays/src/lib.rs::unbond", "primitives/teerdays/src/lib.rs::update"]}
{"id": "C134", "title": "Parentchain blocks are confirmed in order", "statement": "The numbers of the parentchain blocks confirmed for a shard never go down. False for the code: the number is not checked, acceptance does not depend on the confirmed block at all. True: each confirmation comes from an enclave with the code in effect, carries the data of its call, and none is ever removed.", "quantifier": "all configurations, states and histories", "why_tests_cant": "an order over arbitrary histories of confirmations by several enclaves; the tests confirm single blocks", "anchors": ["enclave-bridge/src/lib.rs::confirm_processed_parentchain_block"]}
{"id": "C135", "title": "No finalised sidechain block is the last one", "statement": "While an enclave of a shard is registered there is always a way to finalise a further block. False for the code: numbers may jump, and once the first enclave has finalised number 2^64-1 nobody, not even root, can ever get another block of this shard finalised. True while the latest number is smaller: after purging, every enclave of the shard can finalise a larger one.", "quantifier": "all configurations and histories from a fresh bridge and sidechain, all later histories", "why_tests_cant": "that no later history whatsoever helps is a statement about infinitely many futures", "anchors": ["sidechain/src/lib.rs::confirm_imported_sidechain_block", "sidechain/src/lib.rs::finalize_block", "enclave-bridge/src/lib.rs::purge_enclave_from_shard_status"]}
{"id": "C136", "title": "A refused call names the first condition that does not hold", "statement": "For every call there is an ordered list of conditions, each with the error that reports its violation. In every state a call fails with an error exactly if that error belongs to the first condition of its list that does not hold, and it succeeds exactly if all of them hold. The list covers the calls of all pallets, the certificate chain, quote, report and collateral checks, and the transfers. So a user who sees an error knows which condition failed and that all earlier ones were met.", "quantifier": "every configuration, every history from a chain whose enclave bridge starts empty, every origin, call and error", "why_tests_cant": "Tests check single errors for hand-picked inputs; which error wins when several conditions fail, and that no other error can come out, ranges over all inputs and states.", "anchors": ["teerex/src/lib.rs::register_sgx_enclave", "teerex/src/lib.rs::register_quoting_enclave", "teerex/src/lib.rs::register_tcb_info", "teerex/sgx-verify/src/lib.rs::verify_dcap_quote", "teerex/sgx-verify/src/lib.rs::verify_ias_report", "enclave-bridge/src/lib.rs::unshield_funds", "enclave-bridge/src/lib.rs::update_shard_config", "sidechain/src/lib.rs::confirm_imported_sidechain_block", "teeracle/src/lib.rs::update_oracle", "claims/src/lib.rs::process_claim", "teerdays/src/lib.rs::unbond", "asset-registry/src/lib.rs::register_reserve_asset", "xcm-transactor/src/lib.rs::send_swap_ump"]}
{"id": "C137", "title": "The runtime panics only in listed cases", "statement": "A call panics exactly in these cases, each with all earlier conditions of the call met: unbonding when the unlock time overflows, an unshielding confirmation when the counter of its call hash overflows, minting a claim when the total overflows (these three only in builds with overflow checks), registering collateral signed by Intel when the clock is past 2^63 milliseconds or when the issue date lies before 1970, and paying out a claim whose vesting schedule pallet vesting rejects. No other call panics, for any input; in particular no attestation proof, certificate, shard operation, oracle update, asset registration or swap message does.", "quantifier": "every configuration, every history from a chain whose enclave bridge starts empty, every origin and call", "why_tests_cant": "Absence of panics is a statement about all byte strings and all states; fuzzing and unit tests sample a few.", "anchors": ["teerex/src/lib.rs::register_sgx_enclave", "teerex/src/lib.rs::register_quoting_enclave", "teerex/sgx-verify/src/lib.rs::verify_dcap_quote", "teerex/sgx-verify/src/lib.rs::verify_ias_report", "enclave-bridge/src/lib.rs::unshield_funds", "claims/src/lib.rs::process_claim", "claims/src/lib.rs::mint_claim", "teerdays/src/lib.rs::unbond"]}
{"id": "C138", "title": "Asset locations on the wire: each has one encoding and cannot be taken for another", "statement": "The SCALE bytes of a cross-chain location (parents, then up to eight junctions with their networks, keys, bodies) are exactly those the encoding prescribes; decoding them returns the location and consumes exactly these bytes; every byte string decodes to at most one location and only in-range locations are produced. Hence register_reserve_asset and the XCM calls are decoded with the location the signer encoded, and in every reachable state the registry keys built from locations are distinct for distinct locations and stored locations read back unchanged.", "quantifier": "every location, every byte string, every call, every history of in-range calls", "why_tests_cant": "There are infinitely many locations (nested enums of ten junction kinds) and tests encode two or three of them.", "anchors": ["asset-registry/src/lib.rs::register_reserve_asset", "asset-registry/src/lib.rs::AssetIdLocation", "asset-registry/src/lib.rs::AssetLocationId"]}
{"id": "C139", "title": "Event logs can be decoded without ambiguity", "statement": "Every event the pallets announce is encoded as the index of the pallet, the number of the event and its fields in the declared order; decoding returns that event. For every history of in-range calls, every announced event has its fields within range, so the event log of any block has the prescribed bytes (with the topics of publish_hash beside the event), and two different logs never have the same bytes.", "quantifier": "every event of the eight pallets, every history of in-range calls, every arrangement of events into a log", "why_tests_cant": "Tests compare event values in memory; they never decode bytes, and cannot range over all values of the fields or over all histories.", "anchors": ["teerdays/src/lib.rs::Event", "teerex/src/lib.rs::Event", "enclave-bridge/src/lib.rs::Event", "sidechain/src/lib.rs::Event", "teeracle/src/lib.rs::Event", "claims/src/lib.rs::Event", "asset-registry/src/lib.rs::Event", "xcm-transactor/src/lib.rs::Event", "enclave-bridge/src/lib.rs::deposit_event_indexed"]}
{"id": "C140", "title": "The error code of a failed transaction tells the reason", "statement": "Whenever a call of these pallets is refused without a panic, the dispatch error recorded on chain is: 3, the pallet's index, the position of the error in the pallet's declaration and three zero bytes; or the framework's code for a bad origin, a failed transfer or an untyped error. These bytes identify the error, no two errors share them, so from the bytes alone one can tell which of the call's conditions failed and that all earlier ones held. Each call reports only the errors listed for it; declared but unused errors (and four of the verification library) are never reported.", "quantifier": "every history from a fresh bridge, every call and origin, every assignment of distinct pallet indices", "why_tests_cant": "Tests compare Rust error values for chosen failing inputs; they cannot exclude that some input in some state reports another or an ambiguous code, nor look at encoded codes.", "anchors": ["teerdays/src/lib.rs::Error", "teerex/src/lib.rs::Error", "teerex/src/lib.rs::From<sgx_verify::Error>", "enclave-bridge/src/lib.rs::Error", "sidechain/src/lib.rs::Error", "teeracle/src/lib.rs::Error", "claims/src/lib.rs::Error", "asset-registry/src/lib.rs::Error", "xcm-transactor/src/lib.rs::Error", "teerex/sgx-verify/src/lib.rs::Error"]}
{"id": "C141", "title": "A storage upgrade removes exactly the outdated entries", "statement": "Whatever bytes the storage of a chain holds, running the two storage upgrades of teerex on a chain at version 0 sets the version to 2, moves the debug flag to its new key, removes the old enclave registry with its index and count and all TCB infos, and leaves every other key of the chain as it is. On version 1 only the version and the TCB infos change, from version 2 on nothing. In particular every other stored entry of every pallet survives upgrades in any order and number, as does everything outside the pallet, and the bytes always hold what the upgrades make of the maps of the pallet.", "quantifier": "every raw storage, every key, every 16 byte hash of keys that tells the fixed names apart, every order and number of upgrades", "why_tests_cant": "The tests run the upgrades on one storage with one entry per map and look only at the migrated items. That nothing else is removed is a statement about all keys, including those of other pallets whose keys might share a prefix.", "anchors": ["teerex/src/migrations.rs::MigrateV0toV1::on_runtime_upgrade", "teerex/src/migrations.rs::MigrateV1toV2::on_runtime_upgrade", "teerex/src/lib.rs::SgxTcbInfo", "teerex/src/lib.rs::SgxAllowDebugMode"]}
{"id": "C142", "title": "Upgrades declare at least the writes they make", "statement": "The weight returned by a storage upgrade accounts for at least as many database writes as it changes entries, on every storage.", "quantifier": "every raw storage, both upgrades", "why_tests_cant": "The number of changed entries depends on the storage, and no test looks at the returned weight.", "anchors": ["teerex/src/migrations.rs::MigrateV0toV1::on_runtime_upgrade", "teerex/src/migrations.rs::MigrateV1toV2::on_runtime_upgrade"]}
{"id": "C143", "title": "An entry of the old format is never taken for one of the new format", "statement": "The bytes of a TCB info stored before version 2 cannot be read as a TCB info of version 2: if one was still in the storage, the pallet would find none for that platform, rather than one with invented TCB levels.", "quantifier": "every TCB info of version 1, every raw storage that holds one", "why_tests_cant": "Whether some old entry happens to decode depends on its bytes; there are 2^128 of them.", "anchors": ["teerex/src/migrations.rs::SgxTcbInfoOnChainV1", "teerex/src/lib.rs::SgxTcbInfo", "primitives/teerex/src/lib.rs::SgxTcbInfoOnChain"]}
{"id": "C144", "title": "The rejection code of a claim transaction tells the reason", "statement": "The transaction pool rejects an unsigned transaction of the claims pallet as a wrong call exactly if it is neither a claim nor a claim with statement, with code 0 exactly if the signature recovers to nobody, with code 1 exactly if the signer has no claim, with code 3 exactly if the signer has a claim and the statement it requires is not the one made. A signed transaction is rejected exactly if it attests and the sender has no preclaim (1) or makes the wrong statement (3). No other code occurs.", "quantifier": "every state, every call, every signature, every sender", "why_tests_cant": "A wallet shows the user a reason by the code. Tests try one transaction per code; that no other situation gives the same code is a statement about all of them.", "anchors": ["claims/src/lib.rs::validate_unsigned", "claims/src/lib.rs::PrevalidateAttests::validate", "primitives/claims/src/lib.rs::ValidityError"]}
{"id": "C145", "title": "The pool lets in every claim that would be paid", "statement": "Every unsigned call of the claims pallet that would succeed on chain is accepted by the transaction pool.", "quantifier": "every state, every unsigned call except moving claims", "why_tests_cant": "Pool validation and dispatch are two separate pieces of code; agreement on the tested cases says nothing about the others.", "anchors": ["claims/src/lib.rs::validate_unsigned", "claims/src/lib.rs::claim", "claims/src/lib.rs::claim_attest"]}
{"id": "C146", "title": "A pooled claim stays valid until the claim is paid, minted over or moved", "statement": "As long as no Claimed event for an address appears and nobody with the authority mints a claim for it or moves one from or to it, the pool's verdict on a claim signed by that address does not change, whatever else happens on the chain. After a claim was paid, the pool rejects the same transaction with code 1 for ever, unless a claim is minted for or moved to the address again.", "quantifier": "every history, every address, every signature and destination", "why_tests_cant": "Quantifies over all histories between submission and inclusion of a transaction.", "anchors": ["claims/src/lib.rs::validate_unsigned", "claims/src/lib.rs::process_claim", "claims/src/lib.rs::mint_claim", "claims/src/lib.rs::move_claim"]}
{"id": "C147", "title": "No token counts in two bonds", "statement": "At every moment what all accounts together have bonded or are still unbonding is at most the total issuance, and the tokentime of all accounts together is at most the sum over time of the total issuance. So the same token cannot collect tokentime on two accounts.", "quantifier": "all starting states in which balances are covered by the issuance, all histories of operations without slashing, all sets of accounts", "why_tests_cant": "The bound concerns all accounts together and every interleaving of bonding, unbonding, withdrawing and transfers; a test looks at a few accounts and one order. The history that breaks it needs five calls in a particular order.", "anchors": ["teerdays/src/lib.rs::bond", "teerdays/src/lib.rs::bond_extra", "teerdays/src/lib.rs::unbond", "teerdays/src/lib.rs::try_withdraw_unbonded", "primitives/teerdays/src/lib.rs::TeerDayBond::update"]}
{"id": "C148", "title": "Claimed tokens are released as their vesting schedule says", "statement": "After a claim that was recorded with a vesting schedule has been paid, the receiving account can never spend what the schedule still locks at the current block; and calling vest at any later block leaves exactly the unvested amount locked, hence nothing after the end of the schedule.", "quantifier": "all states, all ways to be paid (claim, claim with statement, attest), all schedules, all later histories; the release part for histories in which the account gets no further schedule", "why_tests_cant": "The lock must hold at every later block and against every order of transfers, bonds, further schedules and updates; a test checks one schedule at a few blocks.", "anchors": ["claims/src/lib.rs::process_claim", "claims/src/lib.rs::claim", "claims/src/lib.rs::claim_attest", "claims/src/lib.rs::attest"]}
{"id": "C149", "title": "Only the contents of a signed document matter, not the layout of its text", "statement": "Two texts that spell the same TCB info or quoting-enclave identity, with different blanks, line breaks, order of members, extra members or letters written with escape sequences, have the same effect when both are signed; only members in hexadecimal digits must not contain escape sequences, a signed document with one there is refused; what is stored are the values written in the text. No text can be read in two ways, and a text that is not valid JSON is refused even if it is signed. For attestation reports, of a member that is repeated in the signed text only the last one counts.", "quantifier": "all byte strings, all JSON documents of any size, all layouts, all states; all histories for enclaves registered with a report", "why_tests_cant": "There are infinitely many texts for one document; a test contains one text as downloaded from Intel.", "anchors": ["teerex/sgx-verify/src/collateral.rs::TcbInfo", "teerex/sgx-verify/src/collateral.rs::EnclaveIdentity", "teerex/sgx-verify/src/lib.rs::deserialize_tcb_info", "teerex/sgx-verify/src/lib.rs::deserialize_enclave_identity", "teerex/sgx-verify/src/lib.rs::parse_report"]}
{"id": "C150", "title": "Signed documents are valid by the calendar", "statement": "A TCB info or quoting-enclave identity whose two dates are written in the published form is accepted only when the chain's clock, read as a date of the Gregorian calendar, is not before the issue date and before the date of the next update; well-formed signed documents are accepted from everybody strictly between these dates. The stored dates are those instants in milliseconds since 1970. An enclave registered with a report has as its timestamp the second written in the report, and was registered then or less than one calendar day later.", "quantifier": "all dates with years 0 to 9999 including leap days, all documents and layouts, all clock values, all histories", "why_tests_cant": "The date arithmetic has to be right for every day, month end, leap year and order of dates; tests use the dates of a handful of documents.", "anchors": ["teerex/sgx-verify/src/collateral.rs::TcbInfo::to_chain_tcb_info", "teerex/sgx-verify/src/collateral.rs::TcbInfo::is_valid", "teerex/sgx-verify/src/collateral.rs::EnclaveIdentity::is_valid", "teerex/sgx-verify/src/lib.rs::parse_report", "teerex/src/lib.rs::register_sgx_enclave"]}
{"id": "C151", "title": "Binary data in an attestation report is exactly what its text says", "statement": "The measurement, signer, key and build mode of an enclave registered with a report of Intel are the bytes of the quote whose Base64 text is the last such member of the signed report; no Base64 text can be read in two ways. Conversely, whoever holds a validly signed report on an enclave with their key can register it on the day of the report and gets exactly the entry that the report describes, whatever the layout of the report and the padding of the Base64 texts.", "quantifier": "all histories, all byte strings, all quotes, all layouts and paddings, all dates", "why_tests_cant": "Texts and quotes are unbounded and the three nested encodings (certificate extension, JSON, Base64) interact; tests contain a few recorded reports.", "anchors": ["teerex/sgx-verify/src/lib.rs::parse_report", "teerex/sgx-verify/src/lib.rs::verify_ias_report", "teerex/sgx-verify/src/netscape_comment.rs::NetscapeComment", "teerex/src/lib.rs::register_sgx_enclave"]}
{"id": "C152", "title": "Certificate chains are read whatever their line ends and line lengths", "statement": "A chain of certificates in the textual form of RFC 7468 is read as exactly its certificates, in order, whatever the lengths of the lines, the padding, and the kind of line end (line feed, carriage return, or both); so registering collateral does not depend on the layout of the chain.", "quantifier": "all lists of certificates, all lengths, all ways to break lines, all three line ends, all states", "why_tests_cant": "There are infinitely many layouts of one chain; tests use the files as downloaded from Intel, which have line feeds only.", "anchors": ["teerex/sgx-verify/src/lib.rs::extract_certs", "teerex/src/lib.rs::register_tcb_info", "teerex/src/lib.rs::register_quoting_enclave"]}
{"id": "C153", "title": "Platform data of a quote are those in Intel's certificate", "statement": "Intel puts the data of a platform (FMSPC, CPU SVN, PCE SVN, and others) into an extension of the platform's certificate, in DER. For every certificate with such an extension, the platform data that a quote is judged by are exactly those of the extension, whatever the other entries of the extension are; a certificate without such an extension or with more than one is refused.", "quantifier": "every content of the extension (provisioning id, 16 component versions, CPU SVN, PCE SVN, PCE id, FMSPC, type, further entries) and every certificate that carries it", "why_tests_cant": "A test has the certificates of one or two machines; the code searches for byte patterns instead of parsing, so whether it always finds the right entry depends on all bytes that can precede it, and the encoding of numbers changes length at values that no test machine has.", "anchors": ["teerex/sgx-verify/src/lib.rs::extract_tcb_info", "teerex/sgx-verify/src/lib.rs::get_fmspc", "teerex/sgx-verify/src/lib.rs::get_cpusvn", "teerex/sgx-verify/src/lib.rs::get_pcesvn", "teerex/sgx-verify/src/lib.rs::get_intel_extension"]}
{"id": "C154", "title": "Honest parties can register by quote", "statement": "Whoever holds Intel's current identity of the quoting enclave, Intel's current TCB info of the platform (both as signed texts, in any layout) and a quote of their enclave made on that platform can register the enclave with three calls. The registered enclave has the measurement, signer and report data in the quote, and the status of the first level in the TCB info that the platform reaches.", "quantifier": "every chain state, all documents, layouts, signatures, certificate chains, platforms and quotes that meet the published formats, all accounts and clocks between the dates of the documents", "why_tests_cant": "Tests replay recorded documents and quotes; acceptance of every honest input is a statement about all of them, and goes through the text, date, Base64, PEM, DER and quote formats at once.", "anchors": ["teerex/src/lib.rs::register_sgx_enclave", "teerex/src/lib.rs::register_quoting_enclave", "teerex/src/lib.rs::register_tcb_info", "teerex/sgx-verify/src/lib.rs::verify_dcap_quote", "teerex/sgx-verify/src/collateral.rs::TcbInfo", "teerex/sgx-verify/src/collateral.rs::EnclaveIdentity"]}
{"id": "C155", "title": "Every call does exactly what its description says", "statement": "For each of the 31 calls of the pallets and the balance transfer there is a description in terms of the arguments, the caller and the observable state: when the call is accepted, what the places it may touch contain afterwards, and which events it emits. A call produces a result exactly if the description allows this result. So the description is complete: nothing else changes, and two implementations that both meet it cannot differ.", "quantifier": "every call by every origin after every history of calls and blocks, and every candidate result", "why_tests_cant": "A unit test compares a few fields of one result; that a description determines the whole state after every call, and that the code always meets it, is an equivalence over all states, calls and results.", "anchors": ["teerdays/src/lib.rs::bond", "teerdays/src/lib.rs::bond_extra", "teerdays/src/lib.rs::unbond", "teerdays/src/lib.rs::withdraw_unbonded", "teerex/src/lib.rs::register_sgx_enclave", "teerex/src/lib.rs::register_tcb_info", "enclave-bridge/src/lib.rs::unshield_funds", "enclave-bridge/src/lib.rs::update_shard_config", "sidechain/src/lib.rs::confirm_imported_sidechain_block", "teeracle/src/lib.rs::update_oracle", "claims/src/lib.rs::claim", "claims/src/lib.rs::move_claim", "asset-registry/src/lib.rs::register_reserve_asset", "xcm-transactor/src/lib.rs::send_swap_ump"]}
{"id": "C156", "title": "The chain and its description have the same histories", "statement": "Take the descriptions of conditions with their errors, effects and events of all calls, and of what the outside world does (blocks, minting, slashing, locks, vesting, assets), as an abstract machine. For every list of operations this machine has exactly one course: the outcome of each operation (done, or refused with which error) and the final state, and it is the course that the pallets take.", "quantifier": "every list of operations from every fresh state, every list of outcomes and every final state", "why_tests_cant": "Agreement of two machines on all histories is a refinement in both directions; a test compares them along one history.", "anchors": ["teerdays/src/lib.rs::bond", "teerex/src/lib.rs::register_sgx_enclave", "enclave-bridge/src/lib.rs::unshield_funds", "sidechain/src/lib.rs::confirm_imported_sidechain_block", "teeracle/src/lib.rs::update_exchange_rate", "claims/src/lib.rs::process_claim", "asset-registry/src/lib.rs::unregister_reserve_asset", "xcm-transactor/src/lib.rs::send_swap_ump"]}
{"id": "C157", "title": "The raw storage can be read by a fixed table", "statement": "For every storage item of the pallets there is a fixed place in the raw storage (hash of the pallet name, hash of the item name, then the hashed or plain key) and a fixed layout of the bytes stored there. At every point of every history the raw storage is exactly this table: a key is in use if and only if it is the documented key of an existing entry, and whoever looks up the documented key of an entry finds the documented bytes, or nothing if the entry does not exist.", "quantifier": "every history of calls and blocks, every storage item, every key and every value", "why_tests_cant": "Wallets, enclaves and other parachains read the storage by key; a test reads back a few entries through the same code that wrote them and cannot see a wrong name, hasher or field order.", "anchors": ["teerdays/src/lib.rs::TeerDayBonds", "teerdays/src/lib.rs::PendingUnlock", "teerex/src/lib.rs::SovereignEnclaves", "teerex/src/lib.rs::ProxiedEnclaves", "teerex/src/lib.rs::SgxTcbInfo", "enclave-bridge/src/lib.rs::ShardStatus", "enclave-bridge/src/lib.rs::ShardConfigRegistry", "enclave-bridge/src/lib.rs::ExecutedUnshieldCalls", "sidechain/src/lib.rs::LatestSidechainBlockConfirmation", "teeracle/src/lib.rs::ExchangeRates", "teeracle/src/lib.rs::OracleData", "teeracle/src/lib.rs::Whitelists", "claims/src/lib.rs::Claims", "claims/src/lib.rs::Preclaims", "asset-registry/src/lib.rs::AssetIdLocation", "asset-registry/src/lib.rs::AssetLocationId"]}
{"id": "C158", "title": "The public key in a certificate is read out exactly, without panic", "statement": "Reading the ephemeral key of an attestation certificate never panics, whatever the bytes. It reports a missing curve exactly if the name of the curve P-256 does not occur, reports an index out of bounds in all other failing cases, and from a certificate with a P-256 key in which the name of the curve occurs first in that key it returns the 64 bytes of the point. For arbitrary bytes it is determined which bytes are returned.", "quantifier": "every byte string, every certificate with a P-256 public key, every point", "why_tests_cant": "Offsets and lengths come from the bytes themselves; a test with one certificate does not show that no other bytes lead out of bounds or to the wrong slice.", "anchors": ["teerex/sgx-verify/src/ephemeral_key.rs::EphemeralKey::try_from", "teerex/sgx-verify/src/utils.rs::length_from_raw_data"]}
{"id": "C159", "title": "What a repeated call does", "statement": "If a call was accepted and the same signer sends the same call again in the same block, the outcome depends only on the kind of call, by a fixed table: bonding, unbonding, withdrawing, unregistering, whitelisting and its removal, asset registration and its removal, and claiming are refused the second time; registering an enclave or collateral, setting flags, confirming a parentchain block, publishing a hash, purging, oracle updates, updating the time of a bond, invoking and moving a claim are accepted again and change no storage; an unshielding moves no money the second time; a configuration update, if accepted again, leaves the configuration in effect as it is; a sidechain block cannot be finalized twice by the first signer, and a repeated confirmation by another one changes nothing; only bonding extra, shielding, transfers, minting claims and swap programs take effect twice.", "quantifier": "every reachable chain state, every call with all arguments, every origin", "why_tests_cant": "A client that does not know whether its transaction went through repeats it; the guarantee has to hold in every state of all pallets and for all arguments, which a finite number of repeated calls does not show.", "anchors": ["enclave-bridge/src/lib.rs::unshield_funds", "enclave-bridge/src/lib.rs::update_shard_config", "sidechain/src/lib.rs::confirm_imported_sidechain_block", "teerdays/src/lib.rs::bond", "teerex/src/lib.rs::register_sgx_enclave", "claims/src/lib.rs::mint_claim", "claims/src/lib.rs::move_claim"]}
{"id": "C160", "title": "The build does not matter while the sums fit", "statement": "A chain compiled with overflow checks and one compiled without give the same result for every call whose unchecked sum fits (the unlock time of an unbonding, the number of confirmations of an unshielding, the total of the claims); no other call depends on the build. Where they differ, the first panics and changes nothing while the second goes on with a sum that wrapped around. So no history of fewer than 2^64 operations tells the two apart, as long as the clock with the unlock period stays in its range and all claims ever minted fit into a balance; the same holds of the genesis of the claims.", "quantifier": "every configuration, every chain state, every operation; every history from every fresh bridge", "why_tests_cant": "Tests run in one build profile, the chain in another; that they agree must hold for every state and history, and the exceptions lie at values no test reaches.", "anchors": ["teerdays/src/lib.rs::unbond", "enclave-bridge/src/lib.rs::unshield_funds", "claims/src/lib.rs::mint_claim", "claims/src/lib.rs::GenesisConfig::build"]}
{"id": "C161", "title": "What can make a valid transaction fail before it is included", "statement": "A call that would succeed now still succeeds after any other operations, unless one of these is on a short list for this call. Bonding, unbonding and withdrawing can be prevented by the account's own calls only (and by a clock overflow). A payment can be prevented by what lowers or locks the money of the sender or changes the balance of the receiver. A call of an enclave can be prevented by a change of its registration, by a change of the configuration of the shard and by somebody taking the tenth place in the status of the shard; a registration by flags, new collateral and time; a claim by its being paid, overwritten or moved, by a vesting schedule for the same account, or by a total that is too low. Nothing can prevent setting flags, purging an enclave, moving a claim or invoking. Claims of other addresses paid to other accounts never stand in the way while the total covers both.", "quantifier": "every reachable chain state, every call with all arguments and every origin, every list of operations in between", "why_tests_cant": "Transactions wait in the pool while others are included; that nothing outside the list can invalidate one must hold for every state and every sequence of operations of all pallets, a test tries one interleaving.", "anchors": ["teerdays/src/lib.rs::bond", "teerdays/src/lib.rs::unbond", "teerdays/src/lib.rs::withdraw_unbonded", "teerex/src/lib.rs::register_sgx_enclave", "teerex/src/lib.rs::unregister_sovereign_enclave", "enclave-bridge/src/lib.rs::unshield_funds", "enclave-bridge/src/lib.rs::shield_funds", "enclave-bridge/src/lib.rs::touch_shard", "sidechain/src/lib.rs::confirm_imported_sidechain_block", "teeracle/src/lib.rs::update_oracle", "claims/src/lib.rs::process_claim", "asset-registry/src/lib.rs::register_reserve_asset"]}
{"id": "C162", "title": "Quotes of outdated quoting enclaves are refused", "statement": "If a DCAP quote is accepted after an identity of the quoting enclave was registered, the quoting enclave that made the quote is up to date: the level that its security version reaches in the identity has the status UpToDate, and the version is not below 6, which the code itself calls the oldest that is not outdated.", "quantifier": "every configuration, every history, every signed identity with any list of levels, every quote", "why_tests_cant": "Which quoting enclaves get in depends on all lists of levels that Intel may publish and on all quotes; tests use one identity with one quote.", "anchors": ["teerex/sgx-verify/src/lib.rs::SgxReportBody::verify", "teerex/sgx-verify/src/collateral.rs::Tcb::is_valid", "teerex/sgx-verify/src/collateral.rs::EnclaveIdentity::to_quoting_enclave", "teerex/src/lib.rs::register_sgx_enclave"]}
{"id": "C163", "title": "A signed claim message is good for one network only", "statement": "The message that a claimant signs for a network with one prefix is not the message of any claim that the transaction pool of a network with another prefix accepts, for any account and statement. For arbitrary statements, two networks have a message in common exactly if one prefix is the other one followed by something that begins with up to 64 hexadecimal digits.", "quantifier": "every two prefixes, all accounts, all statements, every chain state of both networks", "why_tests_cant": "Whether two messages can coincide is a question about all pairs of prefixes, accounts and statements; tests compute single messages.", "anchors": ["claims/src/lib.rs::ethereum_signable_message", "claims/src/lib.rs::validate_unsigned", "claims/src/lib.rs::eth_recover"]}
{"id": "C164", "title": "An enclave tells the identity it is registered under", "statement": "Whoever reads an enclave from the registry can trust what it says about itself: an enclave registered by its own key gives the account it is registered under as its key and as its signer and is not marked as registered by proxy; an enclave registered by proxy gives the fingerprint and the signer of its address, is marked as such and gives no key of its own. Hence the signer tells the account, the signer with fingerprint and registrar tells the address, and no signer occurs in both registries. The URL it gives, its attestation method and its attestation time are those of the last accepted registration of this account or address. The attestation time is never in the future. A key put into report data is read back unchanged.", "quantifier": "every configuration, every history of operations, every enclave of both registries; every key and report data", "why_tests_cant": "The accessors read the stored enclave, the registry key comes from the call; that they agree for every entry after any history of registrations, renewals and removals is an invariant of the whole chain.", "anchors": ["primitives/teerex/src/lib.rs::MultiEnclave::instance_signer", "primitives/teerex/src/lib.rs::MultiEnclave::instance_url", "primitives/teerex/src/lib.rs::MultiEnclave::attestaion_proxied", "primitives/teerex/src/lib.rs::SgxEnclave::maybe_pubkey", "primitives/teerex/src/lib.rs::SgxEnclave::with_pubkey", "teerex/src/lib.rs::add_enclave"]}
{"id": "C165", "title": "The author of an enclave is recognised", "statement": "The author reported for an enclave is the signer that the author's 32-byte key converts to, so the two can be compared; and two enclaves have the same author exactly if they were signed with the same key.", "quantifier": "every enclave, every key", "why_tests_cant": "Whether two representations of one key ever agree is a question about all keys; the tests never compare an author.", "anchors": ["primitives/teerex/src/lib.rs::MultiEnclave::author", "primitives/teerex/src/lib.rs::AnySigner"]}
{"id": "C166", "title": "An enclave that renews its attestation in time cannot be removed", "statement": "As long as no more than the renewal period has passed since the time of an enclave's last attestation (the time in the report, or the time of the block for a quote), the enclave is registered with what that attestation proved, whatever anybody else did since then; nobody can remove it, and if its code is whitelisted for a source it can write exchange rates. Once more time has passed, any account can make sure that it is not registered. The same holds for enclaves that act through the account that registered them.", "quantifier": "every configuration, every history of operations by anybody, every account and every enclave address, every proof and attestation method", "why_tests_cant": "Other parties can try to remove the enclave at any moment and in any order with renewals; a test tries a few schedules.", "anchors": ["teerex/src/lib.rs::register_sgx_enclave", "teerex/src/lib.rs::unregister_sovereign_enclave", "teerex/src/lib.rs::unregister_proxied_enclave", "teerex/src/lib.rs::add_enclave", "teeracle/src/lib.rs::update_exchange_rate"]}
{"id": "C167", "title": "Renewing never shortens a registration", "statement": "If a registered enclave registers again, the time from which its registration counts does not go back.", "quantifier": "every configuration, every history of operations, every account, every proof and attestation method", "why_tests_cant": "The time of a registration comes from different sources for different methods; whether it can go back depends on every pair of attestations.", "anchors": ["teerex/src/lib.rs::register_sgx_enclave", "teerex/src/lib.rs::add_enclave", "teerex/sgx-verify/src/lib.rs::verify_ias_report"]}
{"id": "C168", "title": "The first enclave of a shard can always go on", "statement": "The account that is first in the status of a shard stays first unless root purges it. While its last attestation is not older than the renewal period and is about the code in effect for the shard, it can finalise any sidechain block newer than the latest, whatever anybody else did in the meantime.", "quantifier": "every configuration, every history of operations before and after, every shard and account, every proof and attestation method, every block", "why_tests_cant": "Liveness against every behaviour of all other parties over histories of any length.", "anchors": ["sidechain/src/lib.rs::confirm_imported_sidechain_block", "enclave-bridge/src/lib.rs::touch_shard", "enclave-bridge/src/lib.rs::purge_enclave_from_shard_status", "teerex/src/lib.rs::register_sgx_enclave"]}
{"id": "C169", "title": "A listed enclave that renews in time can always act for its shard", "statement": "Let an account be listed in the status of a shard. If root does not purge the account from that shard, if its last attestation is not older than the renewal period, and if that attestation is about the code that is in effect for the shard, then whatever everybody else does, the account is still listed and the chain accepts from it every confirmation of a parentchain block, every new configuration of the shard, and every payment that the vault of the shard can make by a call that was not executed before.", "quantifier": "every history before and after, with any operations of anybody apart from root purging this account from this shard; every account, shard, proof and kind of attestation; every configuration of the runtime", "why_tests_cant": "A test follows one order of events. The claim says that no sequence of calls by others, such as filling the list, removing enclaves, changing collateral or other shards, can lock the enclave out.", "anchors": ["enclave-bridge/src/lib.rs::touch_shard", "enclave-bridge/src/lib.rs::confirm_processed_parentchain_block", "enclave-bridge/src/lib.rs::update_shard_config", "enclave-bridge/src/lib.rs::unshield_funds", "enclave-bridge/src/lib.rs::purge_enclave_from_shard_status", "teerex/src/lib.rs::register_sgx_enclave", "teerex/src/lib.rs::unregister_sovereign_enclave"]}
{"id": "C170", "title": "Storage upgrades in the middle of a history", "statement": "A chain at storage version 0 of teerex that runs both storage upgrades goes on, whatever happens then, exactly like a chain without enclaves and TCB infos that has the old debug flag and everything else as before; a chain at version 1 goes on with all its enclaves but without TCB infos. Upgrades that stay in the runtime and run again at any later points make no difference to what the pallets do. So every enclave registered on an upgraded chain was registered after the upgrade with its own key, and is no debug enclave unless the old flag allowed them or root did so since.", "quantifier": "every storage of the versions 0, 1 and 2 and later, every history after the upgrade with any operations of anybody, any number of further upgrades at any points of it", "why_tests_cant": "Tests run an upgrade on one storage and look at the storage right after it. The claim is about everything the chain does afterwards, with upgrades repeated at arbitrary points.", "anchors": ["teerex/src/migrations.rs::MigrateV0toV1", "teerex/src/migrations.rs::MigrateV1toV2", "teerex/src/lib.rs::register_sgx_enclave", "teerex/src/lib.rs::register_tcb_info"]}
{"id": "C171", "title": "Calls declare as many reads as decide about their acceptance", "statement": "Whether a call is accepted is decided by at most as many stored values (storage entries, the clock, asset entries) as the weight of the call declares reads for. Two chains at the same block number that agree on these values give the same answer to the call.", "quantifier": "every call with a declared weight, every origin, every pair of states reached by any histories at the same block number", "why_tests_cant": "A benchmark or unit test counts the reads of one run; that no other state makes the call look at more needs all pairs of histories.", "anchors": ["enclave-bridge/src/lib.rs::confirm_processed_parentchain_block", "enclave-bridge/src/lib.rs::shield_funds", "enclave-bridge/src/lib.rs::unshield_funds", "enclave-bridge/src/weights.rs::IntegriteeWeight", "sidechain/src/weights.rs::IntegriteeWeight", "teerex/src/weights.rs::IntegriteeWeight"]}
{"id": "C172", "title": "A quote is judged by the collateral registered last", "statement": "At every point of every history the identity of the quoting enclave and the TCB info for a platform are exactly those of the documents that were registered last (for the TCB info: last for this platform). An accepted quote was made by a quoting enclave that matches the last identity, and the status recorded and announced for the enclave is that of the first level which its platform reaches in the last TCB info. Two chains on which the same documents came last store the same collateral, whatever happened before.", "quantifier": "every configuration, every history of operations, every platform, every document and every quote", "why_tests_cant": "Which document counts depends on the order of all registrations in the history; tests try a few orders with fixed documents.", "anchors": ["teerex/src/lib.rs::register_quoting_enclave", "teerex/src/lib.rs::register_tcb_info", "teerex/src/lib.rs::register_sgx_enclave", "teerex/sgx-verify/src/lib.rs::verify_dcap_quote"]}
{"id": "C173", "title": "What is read is what was written last", "statement": "After every history, the exchange rate read for a pair and a source is the one in the last accepted update for the two (zero if that update gave none); the data read for a name and a source are those of the last accepted update; a code is on the whitelist of a source exactly if the last accepted call about the two put it there; the security flags are those set last; the location of an asset is that of its last registration unless it was unregistered afterwards. Refused calls, calls about other keys and calls of other pallets have no influence. Without any such call the value is the one at the beginning.", "quantifier": "every configuration, every history of operations from every state, every pair, source, name, code and asset", "why_tests_cant": "The value depends on the whole order of writes, removals and refused calls in a history; tests look at a few writes.", "anchors": ["teeracle/src/lib.rs::update_exchange_rate", "teeracle/src/lib.rs::update_oracle", "teeracle/src/lib.rs::add_to_whitelist", "teeracle/src/lib.rs::remove_from_whitelist", "teerex/src/lib.rs::set_security_flags", "asset-registry/src/lib.rs::register_reserve_asset", "asset-registry/src/lib.rs::unregister_reserve_asset"]}
{"id": "C174", "title": "The status of a shard shows the last activity of each enclave", "statement": "After every history, the entry of an account in the status of a shard gives the code that the account was registered with and the block at the time of its last accepted call for this shard (confirming a block, unshielding, configuring, importing a sidechain block, or publishing a hash when the shard is named after its code). An account has no entry if root purged it after its last activity, or if it was never active. Nothing else adds, changes or removes entries: neither calls of other enclaves, nor shielding, nor deregistration.", "quantifier": "every configuration, every history of operations from every state, every shard and account", "why_tests_cant": "The entry depends on the order of all calls of all enclaves and of purges in a history; tests look at a few calls.", "anchors": ["enclave-bridge/src/lib.rs::touch_shard", "enclave-bridge/src/lib.rs::purge_enclave_from_shard_status", "enclave-bridge/src/lib.rs::get_sovereign_enclave_and_touch_shard", "enclave-bridge/src/lib.rs::publish_hash", "enclave-bridge/src/lib.rs::update_shard_config"]}
{"id": "C175", "title": "Enclaves of a shard are ranked by the time they joined", "statement": "After every history, the accounts in the status of a shard are exactly those that were active in it and were not purged since then, and they are listed in the order in which they joined, that is, of their first activity since their last purge. Neither later activity, nor renewals, nor configuration changes alter the order. So whoever finalises a sidechain block joined before all others in the list, and the latest finalised block of a shard is the one in the last accepted confirmation by the account that had joined first at that time.", "quantifier": "every configuration, every history of operations from a chain without shards, every shard and account", "why_tests_cant": "The order of the list is the result of all calls ever made for the shard, by any number of enclaves, with purges in between; a test looks at a few calls.", "anchors": ["enclave-bridge/src/lib.rs::touch_shard", "enclave-bridge/src/lib.rs::purge_enclave_from_shard_status", "sidechain/src/lib.rs::confirm_imported_sidechain_block"]}
{"id": "C176", "title": "The configuration of a shard at any block follows from the accepted updates", "statement": "The configuration of a shard in effect at the present or a later block is the one of the last accepted update that takes effect by then; an update takes effect if it is the first one, or if it is due by then and was due not later than the block of every later update. So an update that is followed by another one before it is due never takes effect. A shard has no configuration exactly if no update for it was ever accepted.", "quantifier": "every configuration, every history of operations from a chain without shards, every shard, every present or later block", "why_tests_cant": "Which of several overlapping updates with different delays wins, with lazy application by any call in between, depends on the whole history.", "anchors": ["enclave-bridge/src/lib.rs::update_shard_config", "enclave-bridge/src/lib.rs::get_maybe_updated_shard_config", "primitives/enclave-bridge/src/lib.rs::UpgradableShardConfig"]}
{"id": "C177", "title": "Storage entries come and go only by calls meant for it", "statement": "An accepted operation creates at most a fixed number of storage entries that depends on the kind of call only, never more than three, and a refused one creates none; so after any history the entries are those of the start and at most three for each accepted operation. An entry goes away only by the call that is meant to remove it, made for this very entry: a bond by an unbonding that leaves less than the existential deposit, a pending unlock by its owner's withdrawal, an enclave by its unregistration, an exchange rate by an update without a rate, a whitelist by the removal of its last code, a claim by its payout or its move to another address, an asset by its unregistration. TCB information, the state and configuration of shards, executed unshield calls, the last confirmed sidechain block and oracle data are never removed by anyone.", "quantifier": "every configuration, every state, every accepted operation, every history, every storage entry of the pallets", "why_tests_cant": "Tests look at the entries of one call; that no call in any history leaves or drops an entry elsewhere is a statement on all calls and all keys.", "anchors": ["teerdays/src/lib.rs::unbond", "teerex/src/lib.rs::unregister_sovereign_enclave", "enclave-bridge/src/lib.rs::unshield_funds", "teeracle/src/lib.rs::update_exchange_rate", "claims/src/lib.rs::process_claim", "asset-registry/src/lib.rs::unregister_reserve_asset"]}
{"id": "C178", "title": "What an account without a role can change", "statement": "Take an account that has no enclave registered under its name, has nothing to attest, and is not among those whom the runtime lets manage assets, swap slots or move claims. A signed call of such an account changes, of the pallets' storage, only its own bond and pending unlock, the bond of somebody else by bringing it up to date (value unchanged, tokentime not lower), entries of enclaves that did not renew their attestation (by removing them), an enclave it attests itself, under its own name, and documents signed by Intel. It takes no money from anybody else, changes nobody else's lock, and sends no message to the relay chain. Any number of such accounts acting together, in any order, with anything else that is not a call happening in between, cannot change shards, sidechain confirmations, oracle data, claims, registered assets or the security flags as long as none of them registers an enclave, and nobody outside the group loses money unless another pallet slashes them.", "quantifier": "every configuration, every state, every signed call, every group of accounts without a role, every history of their calls and of block changes and acts of other pallets", "why_tests_cant": "Tests try single calls that should be refused; that no sequence of calls by any group of outsiders reaches protected state needs all calls, all states and all histories.", "anchors": ["teerdays/src/lib.rs::update_other", "teerex/src/lib.rs::unregister_sovereign_enclave", "teerex/src/lib.rs::register_tcb_info", "enclave-bridge/src/lib.rs::unshield_funds", "enclave-bridge/src/lib.rs::update_shard_config", "teeracle/src/lib.rs::update_oracle", "claims/src/lib.rs::attest", "asset-registry/src/lib.rs::register_reserve_asset", "xcm-transactor/src/lib.rs::send_swap_ump"]}
{"id": "C179", "title": "Root can hand a shard over to any registered enclave", "statement": "After any history, whoever seized or stalled a shard, root can hand it over to any account that has an enclave registered, with at most eleven calls that only configure this shard and take accounts off its list. The calls change nothing but the status and configuration of this shard, in particular no balance. Afterwards the account can confirm parentchain blocks, configure the shard, make every payment that the vault can afford by a call not executed before, and finalise every next sidechain block, and no enclave that runs other code can do any of this.", "quantifier": "every configuration, every history of operations from a chain without shards, every shard, every account with a registered enclave, every payment, every next block", "why_tests_cant": "Tests repair one prepared situation; that the repair works from every state a shard can be brought into is a statement about all histories.", "anchors": ["enclave-bridge/src/lib.rs::update_shard_config", "enclave-bridge/src/lib.rs::purge_enclave_from_shard_status", "enclave-bridge/src/lib.rs::unshield_funds", "enclave-bridge/src/lib.rs::touch_shard", "sidechain/src/lib.rs::confirm_imported_sidechain_block"]}
{"id": "C180", "title": "What root cannot change by the calls of these pallets", "statement": "A call made by root moves, locks, creates or destroys no money, and changes no bond and no pending unlock, no registered enclave, no TCB info and no quoting enclave, no record of an executed payout, no confirmed sidechain block, no exchange rate and no oracle data. The same holds for any number of such calls over any number of blocks.", "quantifier": "every configuration, every state, every call, every sequence of calls made by root", "why_tests_cant": "Tests try a few calls with the root origin; that none of them ever reaches these entries ranges over all calls, arguments and states.", "anchors": ["teerex/src/lib.rs::set_security_flags", "enclave-bridge/src/lib.rs::update_shard_config", "enclave-bridge/src/lib.rs::purge_enclave_from_shard_status", "teeracle/src/lib.rs::add_to_whitelist", "claims/src/lib.rs::mint_claim", "claims/src/lib.rs::move_claim", "asset-registry/src/lib.rs::register_reserve_asset", "xcm-transactor/src/lib.rs::send_swap_ump"]}
{"id": "C181", "title": "How far enclaves of broken code reach", "statement": "Take any set of enclave codes, for instance those found to be broken, and any group of accounts whose enclaves run only such code. Whatever they sign, in any order and together with anything else that is not a call, as long as none of them registers another enclave: a shard whose active and pending configuration names no such code keeps its configuration, its last confirmed block and all money in its vault (unless another pallet slashes it), and its status too unless one of the codes is the shard's own identifier; and what is known from an oracle source whose whitelist contains no such code stays as it is, and so does the whitelist.", "quantifier": "every configuration, every state, every set of codes, every group of accounts, every shard and source, every history of their calls", "why_tests_cant": "That a compromise stays contained is a statement about all sequences of calls of an adversary with any number of accounts.", "anchors": ["enclave-bridge/src/lib.rs::get_sovereign_enclave_and_touch_shard", "enclave-bridge/src/lib.rs::update_shard_config", "enclave-bridge/src/lib.rs::unshield_funds", "enclave-bridge/src/lib.rs::publish_hash", "sidechain/src/lib.rs::confirm_imported_sidechain_block", "teeracle/src/lib.rs::update_oracle", "teeracle/src/lib.rs::update_exchange_rate"]}
