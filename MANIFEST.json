{
 "claims": [
  {
   "property": "C01",
   "status": "partial",
   "theorems": [
    "Verif.C01_sharp",
    "Verif.C01_refuted",
    "Verif.C01_lock_covers_bond_and_pending_partial"
   ],
   "note": "Full claim refuted (C01_refuted): bonding again while an unlock is pending overwrites the lock. Proved for accounts that do not do this. C01_sharp: every successful bond while an unlock is pending leaves a lock that is too small."
  },
  {
   "property": "C02",
   "status": "partial",
   "theorems": [
    "Verif.C02_sharp",
    "Verif.C02_refuted",
    "Verif.C02_locked_until_deadline_partial"
   ],
   "note": "Full claim refuted: a new bond while unlocking shrinks the lock at once. Proved for accounts that do not bond before the deadline. C02_sharp: in every state an account without a bond can shrink its lock to the existential deposit by bonding that."
  },
  {
   "property": "C03",
   "status": "proved",
   "theorems": [
    "Verif.C03_update_update",
    "Verif.C03_many_updates",
    "Verif.C03_history"
   ],
   "note": "C03_update_update and C03_many_updates for one bond and any non-decreasing times, including saturation; C03_history from every reachable state, with arbitrary foreign operations in between."
  },
  {
   "property": "C04",
   "status": "proved",
   "theorems": [
    "Verif.C04_tokentime_is_integral",
    "Verif.C04_tokentime_le_integral",
    "Verif.C04_update_stores"
   ],
   "note": "C04_tokentime_is_integral (equality, capped) for histories without unbonding by the account; C04_tokentime_le_integral for all histories; C04_update_stores: update_other stores exactly this value. The integral is defined on histories in Spec, without the update function."
  },
  {
   "property": "C05",
   "status": "proved",
   "theorems": [
    "Verif.C05_no_saturation",
    "Verif.C05_owned"
   ],
   "note": "C05_no_saturation bounds the bond value, C05_owned the free balance; both are for all histories and schedules within 100 years (of 366 days)."
  },
  {
   "property": "C06",
   "status": "partial",
   "theorems": [
    "Verif.C06_sharp",
    "Verif.C06_refuted",
    "Verif.C06_prorata_partial",
    "Verif.C06_whole_bond"
   ],
   "note": "Full claim refuted: when the remainder is below the existential deposit all tokentime vanishes. Proved pro rata otherwise, and exact behaviour for the whole-bond case. C06_sharp: exactly when the full claim holds for a given unbonding."
  },
  {
   "property": "C07",
   "status": "partial",
   "theorems": [
    "Verif.C07_sharp",
    "Verif.C07_bond_covered",
    "Verif.C07_refuted",
    "Verif.C07_lock_le_free_partial"
   ],
   "note": "Full claim for histories refuted: after the re-bonding trick bond_extra locks money that is no longer there. Proved per call (C07_bond_covered) and, as partial, for unslashed accounts without re-bonding. C07_sharp: apart from a slash, exactly a bond_extra with a free balance below the bond makes the lock exceed the free balance."
  },
  {
   "property": "C08",
   "status": "proved",
   "theorems": [
    "Verif.C08_refused",
    "Verif.C08_pending_stable",
    "Verif.C08_pending_origin"
   ],
   "note": "C08_refused gives the errors, C08_pending_stable that one operation leaves a pending unlock alone or withdraws it after its deadline, C08_pending_origin that it stems from one accepted unbond with the stated deadline and amount."
  },
  {
   "property": "C09",
   "status": "proved",
   "theorems": [
    "Verif.C09_foreign_operations"
   ],
   "note": "One theorem for every operation (not only teerdays calls) that is not one of the account's own bond-managing calls."
  },
  {
   "property": "C10",
   "status": "proved",
   "theorems": [
    "Verif.C10_released_at_most_once",
    "Verif.C10_released_exactly"
   ],
   "note": "C10_released_at_most_once for all histories, C10_released_exactly for accounts that do not bond while an unlock is pending. Amounts are read from the events."
  },
  {
   "property": "C11",
   "status": "partial",
   "theorems": [
    "Verif.C11_sharp",
    "Verif.C11_refuted",
    "Verif.C11_left_locked_partial",
    "Verif.C11_whole_bond_partial"
   ],
   "note": "Full claim refuted: a remainder below the existential deposit stays locked. Partial theorems give the exact remainder. C11_sharp: after the withdrawal exactly the rest stays locked."
  },
  {
   "property": "C12",
   "status": "proved",
   "theorems": [
    "Verif.C12_sovereign_own_key"
   ],
   "note": "For all histories from a chain without enclaves; the entry is tied to an accepted registration by that account and to what its proof established (Attested, Spec)."
  },
  {
   "property": "C13",
   "status": "proved",
   "theorems": [
    "Verif.C13_proxied_address",
    "Verif.C13_distinct_keys"
   ],
   "note": "C13_proxied_address for all histories; C13_distinct_keys even across two histories and configurations. That sovereign and proxied registrations do not mix is the statement on the method in C12 and C13."
  },
  {
   "property": "C14",
   "status": "proved",
   "theorems": [
    "Verif.C14_quote_authentic"
   ],
   "note": "An equivalence with a specification that only speaks about byte offsets and the external primitives (AuthenticQuote, Spec). Signature, hash and certificate functions are arbitrary."
  },
  {
   "property": "C15",
   "status": "proved",
   "theorems": [
    "Verif.C15_no_slack",
    "Verif.C15_no_padding"
   ],
   "note": "C15_no_slack gives the length from the size fields, C15_no_padding that no extension of an accepted quote is accepted."
  },
  {
   "property": "C16",
   "status": "proved",
   "theorems": [
    "Verif.C16_no_panic",
    "Verif.C16_register_no_panic"
   ],
   "note": "For the two verifiers and for the registration call. Panics are explicit error values in the model (slices, indices, conversions)."
  },
  {
   "property": "C17",
   "status": "proved",
   "theorems": [
    "Verif.C17_ias_fresh",
    "Verif.C17_no_replay"
   ],
   "note": "C17_ias_fresh for one call, C17_no_replay for all later histories; the latter assumes a renewal period of at least a day, as the statement says."
  },
  {
   "property": "C18",
   "status": "proved",
   "theorems": [
    "Verif.C18_unregister_iff",
    "Verif.C18_unregister_proxied_iff",
    "Verif.C18_only_unregister_removes"
   ],
   "note": "Equivalences for both registries and any signed origin, and C18_only_unregister_removes over histories."
  },
  {
   "property": "C19",
   "status": "proved",
   "theorems": [
    "Verif.C19_no_debug",
    "Verif.C19_debug_bit"
   ],
   "note": "C19_no_debug over histories without a root call that allows debug mode, C19_debug_bit for the meaning of the build mode at byte offsets."
  },
  {
   "property": "C20",
   "status": "proved",
   "theorems": [
    "Verif.C20_skip_needs_flag",
    "Verif.C20_flags_root_only",
    "Verif.C20_all_attested"
   ],
   "note": "C20_skip_needs_flag and C20_flags_root_only for one operation, C20_all_attested over histories in which skipping was never allowed."
  },
  {
   "property": "C21",
   "status": "proved",
   "theorems": [
    "Verif.C21_first_dominated",
    "Verif.C21_rejects_iff",
    "Verif.C21_monotone",
    "Verif.C21_registration"
   ],
   "note": "C21_first_dominated and C21_rejects_iff are equivalences for the evaluation, C21_monotone the monotonicity, C21_registration the effect on registrations."
  },
  {
   "property": "C22",
   "status": "proved",
   "theorems": [
    "Verif.C22_collateral_signed",
    "Verif.C22_register_tcb_iff",
    "Verif.C22_register_qe_iff",
    "Verif.C22_register_tcb_stores",
    "Verif.C22_register_qe_stores"
   ],
   "note": "C22_collateral_signed over histories; the other theorems say exactly when the two calls succeed and what they store. Certificates, signatures and the JSON reader are arbitrary functions here (see C91-C95, C149 for the reader)."
  },
  {
   "property": "C23",
   "status": "partial",
   "theorems": [
    "Verif.C23_sharp",
    "Verif.C23_refuted",
    "Verif.C23_collateral_was_valid_partial"
   ],
   "note": "Full claim refuted: expiry of stored collateral is not checked at registration. Proved: it was valid when it was stored. C23_sharp: the dates of the stored collateral make no difference to registration."
  },
  {
   "property": "C24",
   "status": "partial",
   "theorems": [
    "Verif.C24_sharp",
    "Verif.C24_refuted",
    "Verif.C24_replacement_valid_partial"
   ],
   "note": "Full claim refuted: anybody may replace collateral by older, still valid collateral. Proved: a replacement is signed by Intel, valid at that time and concerns one platform (or the quoting enclave) only. C24_sharp: in every state, collateral that is signed and valid now replaces what is stored."
  },
  {
   "property": "C25",
   "status": "proved",
   "theorems": [
    "Verif.C25_qe_check_iff"
   ],
   "note": "An equivalence with the conditions at byte offsets of the 384-byte report (QeMatches, Spec). See C162 for what the version check does not ensure."
  },
  {
   "property": "C26",
   "status": "proved",
   "theorems": [
    "Verif.C26_entries_bounded",
    "Verif.C26_long_refused"
   ],
   "note": "C26_entries_bounded over histories, C26_long_refused for one call."
  },
  {
   "property": "C27",
   "status": "proved",
   "theorems": [
    "Verif.C27_paid_once",
    "Verif.C27_first_pays"
   ],
   "note": "C27_paid_once for all later histories and any other arguments, C27_first_pays for the first call."
  },
  {
   "property": "C28",
   "status": "proved",
   "theorems": [
    "Verif.C28_counter"
   ],
   "note": "Over all histories, counting accepted calls; modulo 2^64 since the counter wraps in builds without overflow checks (see C160)."
  },
  {
   "property": "C29",
   "status": "proved",
   "theorems": [
    "Verif.C29_status_ok",
    "Verif.C29_touch_own_entry"
   ],
   "note": "C29_status_ok over histories, C29_touch_own_entry for one operation in a reachable state."
  },
  {
   "property": "C30",
   "status": "proved",
   "theorems": [
    "Verif.C30_upgrade_timeline",
    "Verif.C30_first_immediately",
    "Verif.C30_lazy_invisible"
   ],
   "note": "C30_upgrade_timeline over all later histories and at all later blocks, C30_first_immediately, and C30_lazy_invisible for every other operation."
  },
  {
   "property": "C31",
   "status": "proved",
   "theorems": [
    "Verif.C31_config_authorized"
   ],
   "note": "For every operation and every later block; 'config' is the configuration in effect, so lazily applied upgrades do not count as changes."
  },
  {
   "property": "C32",
   "status": "proved",
   "theorems": [
    "Verif.C32_right_enclave",
    "Verif.C32_confirm_iff"
   ],
   "note": "C32_right_enclave for the three calls, C32_confirm_iff gives the converse for one of them; see C105 for the converse of the others."
  },
  {
   "property": "C33",
   "status": "proved",
   "theorems": [
    "Verif.C33_shield_exact",
    "Verif.C33_unshield_exact"
   ],
   "note": "Moved (Spec) says what a transfer does to all balances, issuance and dust; payments of zero and to oneself are listed separately."
  },
  {
   "property": "C34",
   "status": "partial",
   "theorems": [
    "Verif.C34_refuted",
    "Verif.C34_debit_cases_partial",
    "Verif.C34_ordinary_accounts_partial",
    "Verif.C34_sharp"
   ],
   "note": "Full claim refuted: any registered enclave may configure an account id as a shard and unshield from it. Proved: the exact list of ways a balance can decrease, and safety of accounts never configured as a shard. C34_sharp: in every state of every history, any registered enclave can take the money of any account that is not configured as a shard, with two calls."
  },
  {
   "property": "C35",
   "status": "proved",
   "theorems": [
    "Verif.C35_publish_hash"
   ],
   "note": "An equivalence for the success of the call in every reachable state, and the event."
  },
  {
   "property": "C36",
   "status": "proved",
   "theorems": [
    "Verif.C36_purge_exact"
   ],
   "note": "An equivalence for the success of the call, absence of panics, and the exact effect in every reachable state."
  },
  {
   "property": "C37",
   "status": "proved",
   "theorems": [
    "Verif.C37_most_recent"
   ],
   "note": "For every state; ties are resolved to the last entry in the order of the status, since the sort is stable."
  },
  {
   "property": "C38",
   "status": "partial",
   "theorems": [
    "Verif.C38_refuted",
    "Verif.C38_fingerprint_stops_partial",
    "Verif.C38_sharp"
   ],
   "note": "Full claim refuted: the maintenance flag is never read. Proved: a fingerprint without registered enclave stops the shard. C38_sharp: setting the flag in any shards makes no difference to which calls succeed, in any state."
  },
  {
   "property": "C39",
   "status": "proved",
   "theorems": [
    "Verif.C39_growing",
    "Verif.C39_linked"
   ],
   "note": "C39_growing over histories, C39_linked for one operation in a reachable state. The finalised blocks are read from the events."
  },
  {
   "property": "C40",
   "status": "proved",
   "theorems": [
    "Verif.C40_only_primary",
    "Verif.C40_confirm_iff"
   ],
   "note": "C40_only_primary for every operation, C40_confirm_iff for exactly when a confirmation succeeds and what it does."
  },
  {
   "property": "C41",
   "status": "partial",
   "theorems": [
    "Verif.C41_sharp",
    "Verif.C41_refuted",
    "Verif.C41_primary_partial",
    "Verif.C41_after_purges_partial"
   ],
   "note": "Full claim refuted: when the first signer of a shard is gone nobody can finalize. Proved while the first signer is present, and that root can always repair by purging. C41_sharp: while the first signer is not an enclave of the shard, no operation finalizes a block."
  },
  {
   "property": "C42",
   "status": "proved",
   "theorems": [
    "Verif.C42_no_panic"
   ],
   "note": "For every state, reachable or not."
  },
  {
   "property": "C43",
   "status": "proved",
   "theorems": [
    "Verif.C43_whitelist_ok",
    "Verif.C43_root_only",
    "Verif.C43_removed"
   ],
   "note": "C43_whitelist_ok over histories, C43_root_only and C43_removed for one operation."
  },
  {
   "property": "C44",
   "status": "proved",
   "theorems": [
    "Verif.C44_rates",
    "Verif.C44_blobs",
    "Verif.C44_provenance",
    "Verif.C44_rate_iff",
    "Verif.C44_blob_provenance",
    "Verif.C44_blob_iff"
   ],
   "note": "C44_rates and C44_blobs for every operation, C44_provenance and C44_blob_provenance over histories, C44_rate_iff and C44_blob_iff for who may write. Data stay after a measurement was taken off the list (see the design notes)."
  },
  {
   "property": "C45",
   "status": "proved",
   "theorems": [
    "Verif.C45_bounds"
   ],
   "note": "Over all histories from an empty oracle. The length of the source of a rate follows from the whitelist being empty for longer names."
  },
  {
   "property": "C46",
   "status": "proved",
   "theorems": [
    "Verif.C46_no_zero",
    "Verif.C46_read_back",
    "Verif.C46_default"
   ],
   "note": "C46_no_zero over histories, C46_read_back with arbitrary other operations afterwards, C46_default."
  },
  {
   "property": "C47",
   "status": "proved",
   "theorems": [
    "Verif.C47_conserved",
    "Verif.C47_modulo"
   ],
   "note": "Holds as equation on naturals if the minted amounts fit the balance type or overflow is checked, and modulo the type in any case."
  },
  {
   "property": "C48",
   "status": "proved",
   "theorems": [
    "Verif.C48_solvent",
    "Verif.C48_genesis",
    "Verif.C48_no_underflow"
   ],
   "note": "C48_solvent over histories, C48_genesis for the start, C48_no_underflow for the calls. The assumption on overflow is part of the claim."
  },
  {
   "property": "C49",
   "status": "partial",
   "theorems": [
    "Verif.C49_refuted",
    "Verif.C49_no_overwrite_partial",
    "Verif.C49_sharp"
   ],
   "note": "Full claim refuted: minting or moving onto an open claim leaves the overwritten amount in the total. Proved for histories without such overwriting. C49_sharp: the total is exact exactly if no claim of a positive amount was ever overwritten (C131 has the difference)."
  },
  {
   "property": "C50",
   "status": "proved",
   "theorems": [
    "Verif.C50_in_full",
    "Verif.C50_once"
   ],
   "note": "C50_in_full for every operation that pays, C50_once for all later histories without a new claim for the address."
  },
  {
   "property": "C51",
   "status": "proved",
   "theorems": [
    "Verif.C51_message",
    "Verif.C51_injective",
    "Verif.C51_recover"
   ],
   "note": "C51_message against an independent specification of personal_sign, C51_injective, C51_recover. Hash and key recovery are arbitrary functions; that different messages have different hashes is not claimed. See C163 for different networks."
  },
  {
   "property": "C52",
   "status": "proved",
   "theorems": [
    "Verif.C52_validate_iff",
    "Verif.C52_dispatch",
    "Verif.C52_tag",
    "Verif.C52_tag_any"
   ],
   "note": "C52_validate_iff and C52_dispatch; C52_tag and C52_tag_any for the tags that keep two calls for one address apart."
  },
  {
   "property": "C53",
   "status": "proved",
   "theorems": [
    "Verif.C53_statement",
    "Verif.C53_owner"
   ],
   "note": "For every operation that pays a claim. C53_owner: with or without a recorded statement, the call that pays carries a signature by the key of the address for the account paid, or is signed by the preclaimed account."
  },
  {
   "property": "C54",
   "status": "partial",
   "theorems": [
    "Verif.C54_refuted",
    "Verif.C54_move_partial",
    "Verif.C54_fresh_partial",
    "Verif.C54_sharp"
   ],
   "note": "Full claim refuted: what the old address lacks is kept from the new address. Proved: exact effect, and the full claim for a fresh new address. C54_sharp: the exact condition for each of amount, vesting and statement."
  },
  {
   "property": "C55",
   "status": "partial",
   "theorems": [
    "Verif.C55_refuted",
    "Verif.C55_no_panic_partial",
    "Verif.C55_sharp"
   ],
   "note": "Full claim refuted: a schedule with per_block = 0 makes the expect fail. Proved if all schedules recorded are acceptable to pallet vesting. C55_sharp: exactly when a payout panics."
  },
  {
   "property": "C56",
   "status": "partial",
   "theorems": [
    "Verif.C56_prevalidate_iff",
    "Verif.C56_refuted",
    "Verif.C56_failure_partial",
    "Verif.C56_sharp"
   ],
   "note": "Full claim refuted: claiming with the Ethereum key leaves the preclaim behind. Proved: exact acceptance condition and the only remaining reasons of failure. C56_sharp: exactly when an accepted attest call succeeds."
  },
  {
   "property": "C57",
   "status": "partial",
   "theorems": [
    "Verif.C57_refuted",
    "Verif.C57_arrives_partial",
    "Verif.C57_sharp"
   ],
   "note": "Full claim refuted: amounts below the existential deposit are lost for fresh accounts. Proved otherwise. C57_sharp: the exact condition under which the amount arrives."
  },
  {
   "property": "C58",
   "status": "partial",
   "theorems": [
    "Verif.C58_sharp",
    "Verif.C58_refuted",
    "Verif.C58_back_partial",
    "Verif.C58_inverse_partial"
   ],
   "note": "Full claim refuted: root can register two ids for one location. Proved: the location of an id always leads back to an id with that location, and the full inverse for histories that never register a location twice. C58_sharp: every second registration of a location breaks the inverse."
  },
  {
   "property": "C59",
   "status": "proved",
   "theorems": [
    "Verif.C59_register_iff",
    "Verif.C59_unregister_iff",
    "Verif.C59_lookup"
   ],
   "note": "Equivalences for both calls, and C59_lookup for what the lookups answer afterwards. The check of locations is compared with a specification by cases (IdentifiesAsset)."
  },
  {
   "property": "C60",
   "status": "proved",
   "theorems": [
    "Verif.C60_sends_iff",
    "Verif.C60_one_message",
    "Verif.C60_history"
   ],
   "note": "C60_sends_iff, C60_one_message, and C60_history over all histories. The router is an arbitrary function of the messages sent before."
  },
  {
   "property": "C61",
   "status": "proved",
   "theorems": [
    "Verif.C61_bytes",
    "Verif.C61_roundtrip",
    "Verif.C61_injective"
   ],
   "note": "Bytes, round trip and injectivity for all 32-bit ids."
  },
  {
   "property": "C62",
   "status": "proved",
   "theorems": [
    "Verif.C62_program",
    "Verif.C62_complete",
    "Verif.C62_runs"
   ],
   "note": "C62_program against a program written out in Spec; C62_complete and C62_runs for its execution by an abstract executor. What a real relay chain does with the locations is C83."
  },
  {
   "property": "C63",
   "status": "proved",
   "theorems": [
    "Verif.C63_trapped_iff",
    "Verif.C63_unchanged",
    "Verif.C63_weight"
   ],
   "note": "C63_trapped_iff for which assets, C63_unchanged for order and amounts, C63_weight for what is paid. The trap itself is an arbitrary function."
  },
  {
   "property": "C64",
   "status": "proved",
   "theorems": [
    "Verif.C64_matches_iff",
    "Verif.C64_convert_back"
   ],
   "note": "An equivalence; the conversion of amounts is an arbitrary partial function. C64_convert_back over histories."
  },
  {
   "property": "C65",
   "status": "proved",
   "theorems": [
    "Verif.C65_from_0",
    "Verif.C65_from_1",
    "Verif.C65_done",
    "Verif.C65_once",
    "Verif.C65_version",
    "Verif.C65_types"
   ],
   "note": "From versions 0, 1 and 2 and for any sequence of the two upgrades. See C141-C143 for the same on keys and bytes, and C84 for the second upgrade alone."
  },
  {
   "property": "C66",
   "status": "proved",
   "theorems": [
    "Verif.C66_from32",
    "Verif.C66_from64",
    "Verif.C66_injective",
    "Verif.C66_sizes"
   ],
   "note": "For all keys of both sizes; C66_sizes says when keys of different sizes coincide."
  },
  {
   "property": "C67",
   "status": "proved",
   "theorems": [
    "Verif.C67_fmspc",
    "Verif.C67_cpusvn",
    "Verif.C67_pcesvn",
    "Verif.C67_no_panic",
    "Verif.C67_length"
   ],
   "note": "Equivalences for the three values, with the first occurrence of the identifier; C67_no_panic; C67_length for the helper (see C85 for the other forms of length)."
  },
  {
   "property": "C68",
   "status": "proved",
   "theorems": [
    "Verif.C68_failed",
    "Verif.C68_replay",
    "Verif.C68_frame",
    "Verif.C68_outside",
    "Verif.C68_moneyless"
   ],
   "note": "C68_failed, C68_replay (the successful operations alone determine the state), C68_frame (parts as documented, Call.parts), C68_outside, C68_moneyless. See C124 for single places instead of parts."
  },
  {
   "property": "C69",
   "status": "proved",
   "theorems": [
    "Verif.C69_increase",
    "Verif.C69_decrease",
    "Verif.C69_covered",
    "Verif.C69_balanced",
    "Verif.C69_history"
   ],
   "note": "C69_increase and C69_decrease for every call, C69_covered, C69_balanced and C69_history over histories."
  },
  {
   "property": "C70",
   "status": "partial",
   "theorems": [
    "Verif.C70_sharp",
    "Verif.C70_refuted",
    "Verif.C70_cert_valid_2019_partial"
   ],
   "note": "Full claim refuted: the certificate is always checked at a fixed time in 2019. Proved for that time. C70_sharp: validity of the certificate at other times makes no difference."
  },
  {
   "property": "C71",
   "status": "partial",
   "theorems": [
    "Verif.C71_sharp",
    "Verif.C71_refuted",
    "Verif.C71_status_truthful_partial",
    "Verif.C71_status_shown_partial"
   ],
   "note": "Full claim refuted: enclaves are registered whatever the status. Proved: the stored status is truthful, for every registration and (C71_status_shown_partial) for every entry of both registries after any history. C71_sharp: status values and dates of the stored collateral make no difference to who can register."
  },
  {
   "property": "C72",
   "status": "partial",
   "theorems": [
    "Verif.C72_sharp",
    "Verif.C72_refuted",
    "Verif.C72_dcap_renewal_partial"
   ],
   "note": "Full claim refuted: DCAP quotes carry no date and can be used again. Proved: what a repeated registration needs. C72_sharp: an accepted quote is accepted again at any time at which its certificates are valid."
  },
  {
   "property": "C73",
   "status": "proved",
   "theorems": [
    "Verif.C73_exact",
    "Verif.C73_total",
    "Verif.C73_injective"
   ],
   "note": "An equivalence with a specification of minimal DER, totality with the bound on the size, injectivity."
  },
  {
   "property": "C74",
   "status": "partial",
   "theorems": [
    "Verif.C74_refuted",
    "Verif.C74_unshield_partial",
    "Verif.C74_frame_partial",
    "Verif.C74_sharp"
   ],
   "note": "Full claim refuted: call hashes are shared between shards. Proved for distinct hashes, and that all other state of other shards is untouched. C74_sharp: a call hash used on any shard pays nothing on any other."
  },
  {
   "property": "C75",
   "status": "proved",
   "theorems": [
    "Verif.C75_extract",
    "Verif.C75_roundtrip"
   ],
   "note": "For all lists of bodies and all decoders of Base64; see C152 for other line ends and lengths."
  },
  {
   "property": "C76",
   "status": "proved",
   "theorems": [
    "Verif.C76_ias_authentic",
    "Verif.C76_ias_constants"
   ],
   "note": "An equivalence with a specification (AuthenticIas, Spec); the certificate, signature, JSON and Base64 functions are arbitrary."
  },
  {
   "property": "C77",
   "status": "partial",
   "theorems": [
    "Verif.C77_sharp",
    "Verif.C77_refuted",
    "Verif.C77_no_panic_partial"
   ],
   "note": "Full claim refuted: a negative issue date or a time beyond 2^63 ms panics. Proved otherwise. C77_sharp: exactly when registering collateral panics."
  },
  {
   "property": "C78",
   "status": "partial",
   "theorems": [
    "Verif.C78_refuted",
    "Verif.C78_listed_or_room_partial",
    "Verif.C78_after_purge_partial",
    "Verif.C78_sharp"
   ],
   "note": "Full claim refuted: the list of signers holds ten and never expires. Proved when listed or room is left, and after root purges a signer. C78_sharp: an enclave of the shard can act exactly if it is listed or fewer than ten are."
  },
  {
   "property": "C79",
   "status": "partial",
   "theorems": [
    "Verif.C79_refuted",
    "Verif.C79_registered_partial",
    "Verif.C79_sharp"
   ],
   "note": "Full claim refuted: any registered enclave may configure any unconfigured shard. Proved: root or some registered enclave. C79_sharp: in every state any registered enclave can configure any unconfigured shard."
  },
  {
   "property": "C80",
   "status": "partial",
   "theorems": [
    "Verif.C80_refuted",
    "Verif.C80_failure_partial",
    "Verif.C80_sharp"
   ],
   "note": "Full claim refuted: VestedBalanceExists is not checked by the pool. Proved: vesting is the only remaining reason of failure. C80_sharp: in a solvent state, the exact condition under which an accepted claim is paid."
  },
  {
   "property": "C81",
   "status": "partial",
   "theorems": [
    "Verif.C81_refuted",
    "Verif.C81_mint_partial",
    "Verif.C81_sharp"
   ],
   "note": "Full claim refuted: None keeps earlier vesting and statement. Proved: exact effect. C81_sharp: the exact condition under which root gets what was asked for."
  },
  {
   "property": "C82",
   "status": "partial",
   "theorems": [
    "Verif.C82_refuted",
    "Verif.C82_overflow_partial",
    "Verif.C82_ok_partial"
   ],
   "note": "Full claim refuted: panic or wrap-around, depending on overflow checks. Proved: exact behaviour."
  },
  {
   "property": "C83",
   "status": "partial",
   "theorems": [
    "Verif.C83_stops_partial",
    "Verif.C83_refuted"
   ],
   "note": "Full claim refuted: the program names the fee asset by a location relative to the parachain, so it stops at WithdrawAsset on the relay chain. Proved: where it stops."
  },
  {
   "property": "C84",
   "status": "partial",
   "theorems": [
    "Verif.C84_sharp",
    "Verif.C84_refuted",
    "Verif.C84_alone_partial",
    "Verif.C84_versions_partial"
   ],
   "note": "Full claim refuted: the migration runs on version 0 and then the first one never does. Proved: the exact consequence. C84_sharp: exactly when running the second upgrade alone does no harm."
  },
  {
   "property": "C85",
   "status": "partial",
   "theorems": [
    "Verif.C85_refuted",
    "Verif.C85_length_partial",
    "Verif.C85_wrong_partial"
   ],
   "note": "Full claim refuted: the 0x81 and 0x83 forms are taken for the 0x82 form. Proved for short and two-byte long form, and that all others are decoded wrongly."
  },
  {
   "property": "C86",
   "status": "partial",
   "theorems": [
    "Verif.C86_refuted",
    "Verif.C86_panic_partial"
   ],
   "note": "Full claim refuted: certs[0] panics without certificates. Proved: the panic happens exactly then."
  },
  {
   "property": "C87",
   "status": "proved",
   "theorems": [
    "Verif.C87_unbond_not_blocked",
    "Verif.C87_withdraw_not_blocked",
    "Verif.C87_exit",
    "Verif.C87_exit_always_possible"
   ],
   "note": "C87_unbond_not_blocked, C87_withdraw_not_blocked and C87_exit against arbitrary foreign operations; C87_exit_always_possible from every state. Times have to fit their type."
  },
  {
   "property": "C88",
   "status": "proved",
   "theorems": [
    "Verif.C88_only_own_operations_count",
    "Verif.C88_any_schedule"
   ],
   "note": "C88_only_own_operations_count and C88_any_schedule for histories of teerdays calls and blocks."
  },
  {
   "property": "C89",
   "status": "proved",
   "theorems": [
    "Verif.C89_written",
    "Verif.C89_read_iff",
    "Verif.C89_round_trip",
    "Verif.C89_unambiguous"
   ],
   "note": "Writing, an equivalence for reading, round trip and uniqueness."
  },
  {
   "property": "C90",
   "status": "partial",
   "theorems": [
    "Verif.C90_refuted",
    "Verif.C90_no_panic_partial",
    "Verif.C90_panics_partial",
    "Verif.C90_sharp"
   ],
   "note": "Full claim refuted (C90_refuted): the hexadecimal decoder skips blanks, so 40 characters can decode to fewer than 20 bytes and copy_from_slice panics. This relies on the described behaviour of crate rustc-hex 2.1. Proved for texts without blanks, tabs and line breaks. C90_sharp: the exact set of texts that panic."
  },
  {
   "property": "C91",
   "status": "proved",
   "theorems": [
    "Verif.C91_identity_round_trip",
    "Verif.C91_tcb_info_round_trip"
   ],
   "note": "Date formats are a parameter; the hypothesis is that the dates in the value can be read back."
  },
  {
   "property": "C92",
   "status": "proved",
   "theorems": [
    "Verif.C92_tcb_info",
    "Verif.C92_identity",
    "Verif.C92_registration",
    "Verif.C92_null_is_absent",
    "Verif.C92_repeated_tcb_info",
    "Verif.C92_repeated_identity"
   ],
   "note": "JSON syntax is external; the theorems are about the trees. C92_null_is_absent excepts repeated members, which are refused (C92_repeated_tcb_info, C92_repeated_identity)."
  },
  {
   "property": "C93",
   "status": "partial",
   "theorems": [
    "Verif.C93_accepted_partial",
    "Verif.C93_refuted",
    "Verif.C93_published_partial",
    "Verif.C93_sharp"
   ],
   "note": "Full claim refuted (C93_refuted): the status ConfigurationNeeded, documented by Intel, has no variant in TcbStatus, so a document with such a level is rejected as a whole. Proved for all other documents (C93_published_partial includes documents with optional and unknown members). C93_sharp: a document with such a level is refused in every state."
  },
  {
   "property": "C94",
   "status": "proved",
   "theorems": [
    "Verif.C94_stored_as_published",
    "Verif.C94_published"
   ],
   "note": "For every document whose JSON tree has the shape of a TCB info; StoredAs (Spec) compares numbers, dates and hex text of the document with the entry. C94_published also covers documents with advisories, categories, types and members that the code does not know (Describes in Spec/Escapes)."
  },
  {
   "property": "C95",
   "status": "proved",
   "theorems": [
    "Verif.C95_stored_as_published",
    "Verif.C95_accepted",
    "Verif.C95_published",
    "Verif.C95_published_accepted"
   ],
   "note": "C95_stored_as_published and C95_accepted; documents and entries are compared in Spec. C95_published and C95_published_accepted also cover documents with advisories and members that the code does not know."
  },
  {
   "property": "C96",
   "status": "partial",
   "theorems": [
    "Verif.C96_refuted",
    "Verif.C96_free_failures_partial"
   ],
   "note": "False in full: C96_refuted shows a free refused purge call. C96_free_failures_partial lists exactly the free failing transactions."
  },
  {
   "property": "C97",
   "status": "proved",
   "theorems": [
    "Verif.C97_free_effects",
    "Verif.C97_outsider_pays"
   ],
   "note": "Effects without a fee need the call to be one that is declared free, made by its intended caller; everyone else pays."
  },
  {
   "property": "C98",
   "status": "proved",
   "theorems": [
    "Verif.C98_no_more",
    "Verif.C98_no_less"
   ],
   "note": "Bounds from above and from below; the lower bound is up to one existential deposit per movement, because remainders below it are burned."
  },
  {
   "property": "C99",
   "status": "proved",
   "theorems": [
    "Verif.C99_solvent",
    "Verif.C99_solvent_all",
    "Verif.C99_nothing_lost"
   ],
   "note": "C99_solvent_all counts payments to the vault from elsewhere; C99_nothing_lost is the lower bound."
  },
  {
   "property": "C100",
   "status": "partial",
   "theorems": [
    "Verif.C100_refuted",
    "Verif.C100_older_partial",
    "Verif.C100_sharp"
   ],
   "note": "The full claim is refuted: set_security_flags leaves existing registrations alone. Proved: none is added or renewed, and every one can be removed by anybody after the renewal period. C100_sharp: withdrawing permissions keeps all entries in every state."
  },
  {
   "property": "C101",
   "status": "partial",
   "theorems": [
    "Verif.C101_refuted",
    "Verif.C101_removed_partial",
    "Verif.C101_sharp"
   ],
   "note": "The full claim is refuted: the age of the attestation is looked at only by the unregister calls. Proved: a stale enclave can be removed by anybody, and afterwards all its calls are refused until it registers again. C101_sharp: the time makes no difference to any call for enclaves only."
  },
  {
   "property": "C102",
   "status": "partial",
   "theorems": [
    "Verif.C102_refuted",
    "Verif.C102_origin_partial",
    "Verif.C102_sharp"
   ],
   "note": "The full claim is refuted by an upgrade of the shard configuration. Proved: the origin of each entry. C102_sharp: in every state, root can leave any entry behind with one call."
  },
  {
   "property": "C103",
   "status": "partial",
   "theorems": [
    "Verif.C103_refuted",
    "Verif.C103_until_new_claim_partial",
    "Verif.C103_sharp"
   ],
   "note": "The full claim is refuted: the signed message has no nonce, so a second claim for the same address can be paid with the old signature. Proved: refused until there is a new claim for the address. C103_sharp: a redeemed signature can be redeemed again in every state with a payable claim for the address."
  },
  {
   "property": "C104",
   "status": "partial",
   "theorems": [
    "Verif.C104_refuted",
    "Verif.C104_stays_partial",
    "Verif.C104_sharp"
   ],
   "note": "The full claim is refuted: shield_funds does not look at the shard. Proved: the money cannot be taken out by anybody until the shard is configured or an enclave with that measurement registers. C104_sharp: shielding succeeds exactly if the sender can pay."
  },
  {
   "property": "C105",
   "status": "proved",
   "theorems": [
    "Verif.C105_exactly_when"
   ],
   "note": "One equivalence covering the 31 calls of the pallets and the balance transfer. Where a call depends on a part outside the model (signatures, certificate chains, XCM sender), the condition is the answer of that part."
  },
  {
   "property": "C106",
   "status": "proved",
   "theorems": [
    "Verif.C106_attests_once"
   ],
   "note": "Bound by the preclaims at genesis."
  },
  {
   "property": "C107",
   "status": "proved",
   "theorems": [
    "Verif.C107_bonds_told"
   ],
   "note": "The time of the last update is known from the block of the event and is not part of the statement."
  },
  {
   "property": "C108",
   "status": "partial",
   "theorems": [
    "Verif.C108_refuted",
    "Verif.C108_registered_partial",
    "Verif.C108_sharp"
   ],
   "note": "The full claim is refuted: the event does not name the measurement. Proved: who is registered, with url, status and attestation method. C108_sharp: in every state, registrations with different measurements leave the same events."
  },
  {
   "property": "C109",
   "status": "proved",
   "theorems": [
    "Verif.C109_settings_told"
   ],
   "note": "Over all histories from a started chain; lastWord (Spec) is the newest event about a subject."
  },
  {
   "property": "C110",
   "status": "partial",
   "theorems": [
    "Verif.C110_refuted",
    "Verif.C110_configured_partial",
    "Verif.C110_sharp"
   ],
   "note": "The full claim is refuted: the event names only the shard. Proved: which shards are configured. C110_sharp: in every state, whatever configuration is stored, the events are the same."
  },
  {
   "property": "C111",
   "status": "proved",
   "theorems": [
    "Verif.C111_oracle_told"
   ],
   "note": "Over all histories from a started chain, for every source and pair."
  },
  {
   "property": "C112",
   "status": "proved",
   "theorems": [
    "Verif.C112_assets_told"
   ],
   "note": "Over all histories from a started chain, for every asset and location."
  },
  {
   "property": "C113",
   "status": "partial",
   "theorems": [
    "Verif.C113_refuted",
    "Verif.C113_open_partial",
    "Verif.C113_sharp"
   ],
   "note": "The full claim is refuted: minting and moving claims emit no events. Proved for histories without them. C113_sharp: in every state, claims of any amount can be minted without a trace in the events."
  },
  {
   "property": "C114",
   "status": "proved",
   "theorems": [
    "Verif.C114_swaps_told"
   ],
   "note": "Over all histories from a started chain, with the bytes of the calls written out."
  },
  {
   "property": "C115",
   "status": "partial",
   "theorems": [
    "Verif.C115_refuted",
    "Verif.C115_silent_partial"
   ],
   "note": "The full claim is refuted: minting a claim is silent. Proved: the exact list of silent calls."
  },
  {
   "property": "C116",
   "status": "proved",
   "theorems": [
    "Verif.C116_teerdays",
    "Verif.C116_teerex",
    "Verif.C116_shards",
    "Verif.C116_claims"
   ],
   "note": "Codecs modelled combinator by combinator; the layouts in Spec/Scale.lean are written separately. The SCALE codec itself is external and modelled from its documentation, see DESIGN."
  },
  {
   "property": "C117",
   "status": "proved",
   "theorems": [
    "Verif.C117_calls"
   ],
   "note": "Widths of numbers are parameters (balance width between 4 and 67 bytes for the compact form); the encoding of XCM locations is external and a parameter assumed to be uniquely readable."
  },
  {
   "property": "C118",
   "status": "proved",
   "theorems": [
    "Verif.C118_pallets",
    "Verif.C118_keys",
    "Verif.C118_first_key"
   ],
   "note": "Assumes only that the hashes of the fixed names differ; the key hash may collide arbitrarily since keys are appended (or used as they are, in claims)."
  },
  {
   "property": "C119",
   "status": "proved",
   "theorems": [
    "Verif.C119_in_range",
    "Verif.C119_reads_back"
   ],
   "note": "Invariant over histories. Hypotheses: widths match the configuration (Fits.Config), the call arguments are in range (what the call decoder of C117 guarantees), the clock and block number at the end are in range, and two facts about the JSON and date parsers (Fits.Parsers). C119_reads_back combines the invariant with the codecs of C116."
  },
  {
   "property": "C120",
   "status": "partial",
   "theorems": [
    "Verif.C120_publish_weight_partial",
    "Verif.C120_refuted"
   ],
   "note": "FALSE: enclave-bridge/src/lib.rs L281 passes (number of topics, number of bytes) to a weight function of (number of bytes, number of topics). Refuted; the partial theorem is an equivalence: the weight suffices exactly if there are at least as many bytes as topics."
  },
  {
   "property": "C121",
   "status": "partial",
   "theorems": [
    "Verif.C121_changes_partial",
    "Verif.C121_covered_partial",
    "Verif.C121_each_refuted",
    "Verif.C121_refuted"
   ],
   "note": "FALSE: set_security_flags, confirm_processed_parentchain_block, shield_funds, unshield_funds declare no write, confirm_imported_sidechain_block declares two but changes three entries when a configuration upgrade is due, publish_hash declares by the wrong argument. Each refuted by a history (C121_each_refuted). Partial: bounds for all calls except claims (which has no weights in the repository), and the declared number suffices for all calls not listed. Counted are changed values, which is a lower bound of writes."
  },
  {
   "property": "C122",
   "status": "proved",
   "theorems": [
    "Verif.C122_news",
    "Verif.C122_silence"
   ],
   "note": "Spec/News.lean lists the events of each call in terms of arguments and observable state; one theorem for all calls."
  },
  {
   "property": "C123",
   "status": "partial",
   "theorems": [
    "Verif.C123_sharp",
    "Verif.C123_burned_partial",
    "Verif.C123_refuted"
   ],
   "note": "FALSE: if the rest is below the existential deposit, the bond is removed with the rest's tokentime, which the event does not count. Refuted; partial: never too much, and exact if the bond goes on or everything is unbonded. C123_sharp: the exact equation for every unbonding."
  },
  {
   "property": "C124",
   "status": "proved",
   "theorems": [
    "Verif.C124_only_own_places"
   ],
   "note": "Spec/Locality.lean lists the places; event logs are not places. sending money lists the total issuance only if dust is burned."
  },
  {
   "property": "C125",
   "status": "proved",
   "theorems": [
    "Verif.C125_same_effect",
    "Verif.C125_same_error"
   ],
   "note": "Stated for success with effect (C125_same_effect), plus equality of the lists; C125_same_error for refusals, in any two states of histories from a fresh bridge."
  },
  {
   "property": "C126",
   "status": "proved",
   "theorems": [
    "Verif.C126_any_order",
    "Verif.C126_undisturbed",
    "Verif.C126_any_order_error",
    "Verif.C126_undisturbed_error"
   ],
   "note": "C126_any_order for two calls (any outcome), C126_undisturbed for a whole list of calls included before; C126_any_order_error and C126_undisturbed_error for the reason of a refusal. Event logs are excluded: their order does depend on the order of the calls."
  },
  {
   "property": "C127",
   "status": "proved",
   "theorems": [
    "Verif.C127_one_value",
    "Verif.C127_bytes_tell",
    "Verif.C127_entries_tell"
   ],
   "note": "Values are those of Slot.value (Model/Trie.lean), keys those of C118; hash functions are parameters assumed to keep the names of pallets and items apart. Items with a default are treated as if the default was stored."
  },
  {
   "property": "C128",
   "status": "partial",
   "theorems": [
    "Verif.C128_sharp",
    "Verif.C128_sizes_partial",
    "Verif.C128_refuted"
   ],
   "note": "Proved for 18 of the 22 storage items. Refuted in full: the owner of any registered enclave can store a shard configuration of any size (only the block length limits it in practice). No bound is claimed for the quoting enclave, TCB info and asset location entries. C128_sharp: in every state, whoever may configure a shard can exceed any given size."
  },
  {
   "property": "C129",
   "status": "proved",
   "theorems": [
    "Verif.C129_first",
    "Verif.C129_second",
    "Verif.C129_sequence",
    "Verif.C129_guarantee",
    "Verif.C129_guarantee_second"
   ],
   "note": "C129_first/second/sequence: no false alarm; C129_guarantee: what an accepted state satisfies, for arbitrary pairs of states. The check of the second upgrade also refuses chains that are already at version 2, where the upgrade itself would do nothing."
  },
  {
   "property": "C130",
   "status": "proved",
   "theorems": [
    "Verif.C130_calls",
    "Verif.C130_effects"
   ],
   "note": "C130_calls: for every call restricted to enclaves, with the measurement it demands (Demands in Spec/Trust.lean). C130_effects: the same for the effects of arbitrary operations. Both from an invariant by induction over the history. Cryptography and parsing are the external functions of the configuration, as in C14 and C76."
  },
  {
   "property": "C131",
   "status": "proved",
   "theorems": [
    "Verif.C131_fate",
    "Verif.C131_total",
    "Verif.C131_from_genesis"
   ],
   "note": "C131_fate needs no assumption on overflow or on the recorded total; C131_total and C131_from_genesis relate the recorded total to it. Strengthens C49_no_overwrite_partial: the surplus of the total is given exactly."
  },
  {
   "property": "C132",
   "status": "proved",
   "theorems": [
    "Verif.C132_genesis"
   ],
   "note": "Exact content of every map after build, for lists with any repetitions."
  },
  {
   "property": "C133",
   "status": "proved",
   "theorems": [
    "Verif.C133_age"
   ],
   "note": "Invariant by induction over the history; holds also where the arithmetic saturates."
  },
  {
   "property": "C134",
   "status": "partial",
   "theorems": [
    "Verif.C134_refuted",
    "Verif.C134_signed_partial",
    "Verif.C134_unchecked_partial",
    "Verif.C134_sharp"
   ],
   "note": "C134_refuted: block 9, then block 3. Partial: origin and content of each confirmation; acceptance is independent of the block. C134_sharp: an enclave that can confirm one block can confirm any list of blocks in any order."
  },
  {
   "property": "C135",
   "status": "partial",
   "theorems": [
    "Verif.C135_end",
    "Verif.C135_refuted",
    "Verif.C135_room_partial",
    "Verif.C135_sharp"
   ],
   "note": "C135_refuted with C135_end: after number 2^64-1 nothing is ever finalised again for the shard. C135_room_partial: otherwise it can continue after purging. C135_sharp: while an enclave of the shard is registered, a further block can be finalised if and only if the last number is below 2^64-1."
  },
  {
   "property": "C136",
   "status": "proved",
   "theorems": [
    "Verif.C136_reason",
    "Verif.C136_accepted"
   ],
   "note": "The table `conditions` in Spec/Refusal.lean lists every call with its conditions in order, down to the byte offsets of quotes and of the Intel extension. The bound on the signers of a shard is an invariant, hence the start from an empty bridge. The errors inside pallet_balances, pallet_vesting and the message sender are modelled as described in DESIGN.md."
  },
  {
   "property": "C137",
   "status": "proved",
   "theorems": [
    "Verif.C137_panics_exactly"
   ],
   "note": "The table `PanicCase` in Spec/Refusal.lean. Claims with `per_block` zero reach the panic: `mint_claim` stores any schedule, the payout then unwraps the rejection. Panics of dependencies (allocation, the JSON, X.509 and crypto crates) are outside the model."
  },
  {
   "property": "C138",
   "status": "proved",
   "theorems": [
    "Verif.C138_location",
    "Verif.C138_calls",
    "Verif.C138_stored"
   ],
   "note": "The codec of XCM v4 locations is concrete (Model/ScaleXcm) and checked against a directly written layout (Spec/ScaleXcm). C138_calls and C138_stored instantiate the statements about calls (C117) and storage (C118, C119) with it, so no assumption about the encoding of locations remains. The bytes of one USDT location are shown."
  },
  {
   "property": "C139",
   "status": "proved",
   "theorems": [
    "Verif.C139_event",
    "Verif.C139_log",
    "Verif.C139_in_range",
    "Verif.C139_history"
   ],
   "note": "C139_event: codec of the event of the runtime against a directly written layout; C139_log: event log of a block; C139_in_range: in every history of in-range calls every announced event is in range (induction over the history); C139_history combines the two. Pallet indices are parameters, assumed distinct (construct_runtime, external). Events of other pallets (balances, system) are not modelled."
  },
  {
   "property": "C140",
   "status": "proved",
   "theorems": [
    "Verif.C140_only",
    "Verif.C140_code",
    "Verif.C140_reason",
    "Verif.C140_never"
   ],
   "note": "C140_code (bytes say the error, and only it), C140_reason (with C136: the first condition that failed can be read off), C140_only (errors per call), C140_never (dead codes). Error enums in source order in Model/ErrorCodes, positions and codes as a flat table in Spec/ErrorCodes. The codes of DispatchError, TokenError and ArithmeticError are external, from memory."
  },
  {
   "property": "C141",
   "status": "proved",
   "theorems": [
    "Verif.C141_from_0",
    "Verif.C141_from_1",
    "Verif.C141_done",
    "Verif.C141_in_use",
    "Verif.C141_outside",
    "Verif.C141_refines"
   ],
   "note": "On raw keys and bytes. The hash is any function that tells the finitely many fixed names apart (UpgradeApart, shown to be satisfiable). C141_refines links the bytes to the storage maps of C65, C84 and C129. The removal limit of 2^32-1 keys is not modelled."
  },
  {
   "property": "C142",
   "status": "partial",
   "theorems": [
    "Verif.C142_sharp",
    "Verif.C142_refuted",
    "Verif.C142_partial"
   ],
   "note": "False for the upgrade from 0 to 1: it changes up to four entries besides the purged ones (both debug flags, the count, the version) and declares three. C142_partial: the second upgrade declares enough, the first is short by at most one. Reads are not counted. C142_sharp: exactly when the first upgrade changes no more entries than declared."
  },
  {
   "property": "C143",
   "status": "proved",
   "theorems": [
    "Verif.C143_tcb_info",
    "Verif.C143_read"
   ],
   "note": "By length: an entry of version 2 has at least 17 bytes, one of version 1 has 16."
  },
  {
   "property": "C144",
   "status": "proved",
   "theorems": [
    "Verif.C144_unsigned",
    "Verif.C144_signed"
   ],
   "note": "Both directions for every code. Code 2 (NoPermission) is declared and never returned."
  },
  {
   "property": "C145",
   "status": "partial",
   "theorems": [
    "Verif.C145_sharp",
    "Verif.C145_refuted",
    "Verif.C145_partial"
   ],
   "note": "False: a claim with a statement although none is required would be paid, but the pool rejects it. C145_partial: this is the only difference. C145_sharp: exactly when the pool lets in a claim that would be paid."
  },
  {
   "property": "C146",
   "status": "proved",
   "theorems": [
    "Verif.C146_stable",
    "Verif.C146_spent"
   ],
   "note": "C146_stable for any history, C146_spent after the payment. Example shows that a newly minted claim makes the old signature valid again (there is no nonce)."
  },
  {
   "property": "C147",
   "status": "partial",
   "theorems": [
    "Verif.C147_sharp",
    "Verif.C147_refuted",
    "Verif.C147_bonds_partial",
    "Verif.C147_tokentime_partial"
   ],
   "note": "False in full: an account that bonds again while an unlock is pending loses its lock on withdrawal, can send the tokens on, and they are bonded a second time (C147_refuted: 2500 bonded of 1500 existing). Proved for accounts that do not bond while an unlock is pending and are not slashed: bonds plus pending unlocks are covered by the issuance, tokentime by the time integral of the issuance. C147_sharp: in every state, whoever has a bond and no other locks can get the same tokens bonded a second time."
  },
  {
   "property": "C148",
   "status": "proved",
   "theorems": [
    "Verif.C148_held",
    "Verif.C148_released",
    "Verif.C148_ends"
   ],
   "note": "Balances and pallet_vesting are the trusted description in Model/Balances; fees paid out of locked tokens are not modelled. Lower bound for every later history, exact lock after vest for histories without a further schedule, end of the schedule."
  },
  {
   "property": "C149",
   "status": "proved",
   "theorems": [
    "Verif.C149_escapes",
    "Verif.C149_escaped_family",
    "Verif.C149_escaped_identity",
    "Verif.C149_one_meaning",
    "Verif.C149_reader",
    "Verif.C149_tcb_info",
    "Verif.C149_identity",
    "Verif.C149_layout",
    "Verif.C149_further_members",
    "Verif.C149_not_json",
    "Verif.C149_report"
   ],
   "note": "The grammar is that of RFC 8259 with the limits of serde_json 1.0.114 as remembered (Spec/JsonText). The theorems assume that the external reader follows it (ReadsJson); C149_reader shows that the described reader does, for all byte strings. Equal effect under reordering is that of C92. Optional and unknown members: C149_further_members. Escape sequences: C149_escapes, C149_escaped_family, C149_escaped_identity."
  },
  {
   "property": "C150",
   "status": "proved",
   "theorems": [
    "Verif.C150_identity_accepted",
    "Verif.C150_calendar",
    "Verif.C150_order",
    "Verif.C150_tcb_info_window",
    "Verif.C150_identity_window",
    "Verif.C150_tcb_info_accepted",
    "Verif.C150_report_time"
   ],
   "note": "The theorems assume that chrono reads dates of the published form YYYY-MM-DDTHH:MM:SSZ (and the form in attestation reports) as the calendar in Spec/Calendar says; Model/DateText is a reader that does. Documents with status ConfigurationNeeded are excluded from the acceptance part (C93). The documents may have optional and unknown members (TextOf in Spec/Escapes)."
  },
  {
   "property": "C151",
   "status": "proved",
   "theorems": [
    "Verif.C151_one_meaning",
    "Verif.C151_text",
    "Verif.C151_reader",
    "Verif.C151_report",
    "Verif.C151_accepted"
   ],
   "note": "The theorems assume that the external Base64 reader reads the texts of RFC 4648 with optional padding (ReadsBase64), as crate base64 0.13.1 is remembered to do; C151_reader shows that the described reader does. The length of the comment must be one that the code reads correctly (C85)."
  },
  {
   "property": "C152",
   "status": "partial",
   "theorems": [
    "Verif.C152_chain_partial",
    "Verif.C152_layout_partial",
    "Verif.C152_carriage_return",
    "Verif.C152_refuted",
    "Verif.C152_sharp"
   ],
   "note": "Full claim refuted (C152_refuted): only line feeds are removed from the text, so with carriage returns no certificate is found and the chain is refused as too short (C152_carriage_return). Proved for line feeds, with lines of any length and any padding. C152_sharp: exactly which chains are read."
  },
  {
   "property": "C153",
   "status": "partial",
   "theorems": [
    "Verif.C153_platform_partial",
    "Verif.C153_high_refused",
    "Verif.C153_one_extension",
    "Verif.C153_sharp",
    "Verif.C153_refuted",
    "Verif.C153_misread"
   ],
   "note": "Full claim refuted: PCE SVNs from 32768 need three bytes in DER and are refused (C153_high_refused); bytes of Intel's object identifier inside the provisioning id are taken for the entry (C153_misread). Proved for all other extensions, by searching the exact DER form of the extension. C153_sharp: without such bytes, exactly the PCE SVNs below 32768 are read. C153_one_extension: data are read from certificates with exactly one such extension only, and from nothing else in them."
  },
  {
   "property": "C154",
   "status": "partial",
   "theorems": [
    "Verif.C154_quote_partial",
    "Verif.C154_proxied_partial",
    "Verif.C154_other_sizes_refused",
    "Verif.C154_documents_partial",
    "Verif.C154_high_refused",
    "Verif.C154_sharp",
    "Verif.C154_refuted"
   ],
   "note": "False for the code in two ways (C154_refuted): platforms with PCE SVN 32768 or more are refused (C154_high_refused), and so are quotes whose authentication data are not 32 bytes long, since the code hashes 32 bytes whatever the size says (C154_other_sizes_refused). Proved for all other honest parties, with and without an account of the enclave's own (proxied). C154_sharp: these are exactly the two reasons."
  },
  {
   "property": "C155",
   "status": "proved",
   "theorems": [
    "Verif.C155_exactly"
   ],
   "note": "Spec/Effect.lean gives the new content of every place a call may change; with the tables of C105 (conditions), C124 (places) and C122 (events) it determines the result. The equivalence holds for all states reachable from a fresh bridge (well-formed status lists). Answers of external parts (signatures, XCM sender) enter as in C105."
  },
  {
   "property": "C156",
   "status": "proved",
   "theorems": [
    "Verif.C156_histories",
    "Verif.C156_one_course"
   ],
   "note": "Spec/History.lean: the abstract machine, made of the tables of C105, C122, C124, C136, C155 and a table of the actions outside the pallets (as assumed in Model/Runtime.lean). C156_histories: same outcomes and same states as the model; C156_one_course: it never gets stuck and never has a choice."
  },
  {
   "property": "C157",
   "status": "proved",
   "theorems": [
    "Verif.C157_table",
    "Verif.C157_lookup"
   ],
   "note": "Keys and values are compared with a separate table (Spec/StorageMap) that uses none of the model's codecs, item names or hashers. The hashes and the encoding of locations are parameters. Items with a default are given as if the default was stored. The state at the beginning has to be in range, see C119."
  },
  {
   "property": "C158",
   "status": "proved",
   "theorems": [
    "Verif.C158_exactly",
    "Verif.C158_refusals",
    "Verif.C158_reads"
   ],
   "note": "The function is not used by any call of the pallets. Exact characterisation for all bytes, both errors, and the point of a P-256 key; the latter under the hypothesis that the name of the curve does not occur before the key."
  },
  {
   "property": "C159",
   "status": "proved",
   "theorems": [
    "Verif.C159_harmless",
    "Verif.C159_refused",
    "Verif.C159_sidechain",
    "Verif.C159_unshield",
    "Verif.C159_configuration",
    "Verif.C159_again"
   ],
   "note": "The table Call.retry in Spec/Retry.lean lists the kinds of calls; one theorem per kind (refused, harmless, sidechain, unshield, configuration, again)."
  },
  {
   "property": "C160",
   "status": "proved",
   "theorems": [
    "Verif.C160_same",
    "Verif.C160_difference",
    "Verif.C160_histories",
    "Verif.C160_indistinguishable",
    "Verif.C160_genesis"
   ],
   "note": "C160_same, C160_difference: one operation; C160_histories: sums fit at every step; C160_indistinguishable: hypotheses on the list of operations only (length, time that passes, amounts minted); C160_genesis: the claims at genesis. A plain `+` on stored values occurs in the three calls named in `SumFits` and at genesis only; saturating and checked sums do not depend on the build. Sums of offsets in sgx-verify (bounded by the length of the input and a two byte length) are modelled as natural numbers."
  },
  {
   "property": "C161",
   "status": "proved",
   "theorems": [
    "Verif.C161_only_these",
    "Verif.C161_history",
    "Verif.C161_teerdays_own",
    "Verif.C161_claims_independent",
    "Verif.C161_possible"
   ],
   "note": "For each call a list of the operations that can make it fail (Spec/Hinder.lean). C161_only_these: an accepted operation that is not on the list leaves the call acceptable. C161_history: the same for any list of operations in between. C161_teerdays_own and C161_claims_independent spell out two consequences without the list. C161_possible shows by one history per group that the listed operations do make calls fail, so the list is not too long in kind; it is not claimed that each listed operation does so in every state."
  },
  {
   "property": "C162",
   "status": "partial",
   "theorems": [
    "Verif.C162_listed_partial",
    "Verif.C162_good_identities_partial",
    "Verif.C162_sharp",
    "Verif.C162_refuted"
   ],
   "note": "Full claim refuted: a quote of a quoting enclave of version 3 is accepted after an identity was registered that lists version 8 as up to date and version 2 as out of date. Tcb::is_valid (at least 6) is never called, and the status of the levels is not stored. Proved: the version reaches some level of the signed identity that was registered last; the claim holds if that identity lists only good levels. C162_sharp: of the levels only the least listed version matters."
  },
  {
   "property": "C163",
   "status": "proved",
   "theorems": [
    "Verif.C163_exact",
    "Verif.C163_one_network",
    "Verif.C163_same_prefix"
   ],
   "note": "Proved for all pairs of prefixes, and exact for arbitrary statements (C163_exact). The claim is about messages; that a signature over one message is not one over another is cryptography. C163_same_prefix: networks with the same prefix accept each other's signatures."
  },
  {
   "property": "C164",
   "status": "proved",
   "theorems": [
    "Verif.C164_sovereign",
    "Verif.C164_proxied",
    "Verif.C164_one_identity",
    "Verif.C164_key_back",
    "Verif.C164_last_sovereign",
    "Verif.C164_last_proxied"
   ],
   "note": "Invariant over all histories from a chain without enclaves, for both registries, with the uniqueness that follows; C164_last_sovereign and C164_last_proxied: URL, method and what was attested are those of the last accepted registration. The round trip of keys through report data (conversion, with_pubkey, with_attestation_method) is proved for all keys."
  },
  {
   "property": "C165",
   "status": "partial",
   "theorems": [
    "Verif.C165_sharp",
    "Verif.C165_refuted",
    "Verif.C165_same_author_partial"
   ],
   "note": "False as stated: author() gives the 32 bytes of MRSIGNER as they are, whereas the conversion of a 32-byte key pads it to 66 bytes, so the two never compare equal (C165_sharp, for all enclaves and keys). Proved: the author is exactly MRSIGNER, and two enclaves have the same author exactly if their MRSIGNER is the same."
  },
  {
   "property": "C166",
   "status": "proved",
   "theorems": [
    "Verif.C166_in_time",
    "Verif.C166_overdue",
    "Verif.C166_proxied_in_time"
   ],
   "note": "Proved for both registries: C166_in_time and C166_overdue for enclaves that act for themselves, C166_proxied_in_time for the others. LastRenewal ranges over the accepted operations of the history; AttestedAt reads the time from the report or takes the time of the block."
  },
  {
   "property": "C167",
   "status": "partial",
   "theorems": [
    "Verif.C167_refuted",
    "Verif.C167_less_than_a_day_partial",
    "Verif.C167_sharp"
   ],
   "note": "Full claim refuted: after a registration by a quote, an older report is accepted and counts from its own time. Proved: quotes never shorten a registration and reports shorten it by less than a day. C167_sharp: the exact condition."
  },
  {
   "property": "C168",
   "status": "proved",
   "theorems": [
    "Verif.C168_first_goes_on"
   ],
   "note": "Proved. Combines the invariant on the first signer with C166 and C41. The code in effect may be changed by root or by enclaves of the shard; the theorem asks for an attestation of the code in effect at the end."
  },
  {
   "property": "C169",
   "status": "proved",
   "theorems": [
    "Verif.C169_listed_goes_on"
   ],
   "note": "Proved over whole histories from the effects of every operation on the list of signers and on registrations. The example has a second signer that keeps its place while the first one is purged, somebody tries to remove it, and its attestation would have expired without the renewal."
  },
  {
   "property": "C170",
   "status": "proved",
   "theorems": [
    "Verif.C170_again",
    "Verif.C170_from_0",
    "Verif.C170_registry",
    "Verif.C170_from_1"
   ],
   "note": "Histories in which the upgrades are operations among others (Spec/Upgrade). A TCB info of version 1 that is still in storage reads as none, which is C143. The calls that an old runtime made before the upgrade are not modelled; the storage it left is arbitrary."
  },
  {
   "property": "C171",
   "status": "partial",
   "theorems": [
    "Verif.C171_covered_partial",
    "Verif.C171_each_refuted",
    "Verif.C171_refuted",
    "Verif.C171_sharp"
   ],
   "note": "False in full. C171_covered_partial gives, for every call but four, a list of readings that decides its acceptance and is no longer than the declared number of reads. C171_each_refuted shows for each of the four others (confirming a parentchain block, confirming a sidechain block, shielding, unshielding) a reached state in which every list of readings that decides about it is longer than declared; C171_sharp says that no other call has such a state. Counted are only readings that decide about acceptance, which is a lower bound of what the code reads. The block number and the message router are not counted."
  },
  {
   "property": "C172",
   "status": "proved",
   "theorems": [
    "Verif.C172_last_counts",
    "Verif.C172_judged",
    "Verif.C172_nothing_else"
   ],
   "note": "C172_last_counts: what is stored after every history; C172_judged: what an accepted quote and its status depend on; C172_nothing_else: earlier documents, signatures, senders and times have no influence on what is stored."
  },
  {
   "property": "C173",
   "status": "proved",
   "theorems": [
    "Verif.C173_exchange_rate",
    "Verif.C173_oracle_data",
    "Verif.C173_whitelist",
    "Verif.C173_flags",
    "Verif.C173_location"
   ],
   "note": "One theorem per kind of value, all from one lemma on histories. `lastWritten` is taken over the accepted operations; what an operation writes is a table in Spec/LastWrite.lean that looks at the operation only."
  },
  {
   "property": "C174",
   "status": "proved",
   "theorems": [
    "Verif.C174_entry"
   ],
   "note": "For every account the entry equals what the last accepted operation about it wrote (table writesEntry in Spec/LastWrite.lean: operation, registered code and block at that time). The order of the entries is not part of this claim; see C168 for the first one."
  },
  {
   "property": "C175",
   "status": "proved",
   "theorems": [
    "Verif.C175_order",
    "Verif.C175_finalizer",
    "Verif.C175_latest"
   ],
   "note": "Induction over histories; joining is defined on the list of accepted operations only (Spec/Succession.lean). C175_order gives membership and order, C175_finalizer and C175_latest what follows for finalisation."
  },
  {
   "property": "C176",
   "status": "proved",
   "theorems": [
    "Verif.C176_timeline"
   ],
   "note": "Induction over histories, for all present and later blocks at once; the updates and when they take effect are defined on the list of accepted operations only (Spec/Timeline.lean)."
  },
  {
   "property": "C177",
   "status": "proved",
   "theorems": [
    "Verif.C177_created",
    "Verif.C177_growth",
    "Verif.C177_removed",
    "Verif.C177_removed_in",
    "Verif.C177_permanent"
   ],
   "note": "One lemma over all operations (exec_changes): what is new lies in a list of bounded length, and what is gone may be removed by the operation (the relation Removes of Spec/Growth names entry and condition for every call). Entries of the storage items of the modelled pallets; items that are a single value always count as present, a whitelist counts as present if it is not empty."
  },
  {
   "property": "C178",
   "status": "proved",
   "theorems": [
    "Verif.C178_outsider",
    "Verif.C178_together",
    "Verif.C178_money"
   ],
   "note": "Single call (C178_outsider) and groups over histories (C178_together, C178_money). Unsigned claim calls are not covered: whoever holds the signature of an Ethereum account may submit them, see the claims on the claims pallet. The group theorems exclude registration of an enclave by a member of the group: after it that member has a role (C178_outsider lists this as one of the permitted effects)."
  },
  {
   "property": "C179",
   "status": "proved",
   "theorems": [
    "Verif.C179_takeover"
   ],
   "note": "Proved for all histories. The repair is one configuration with delay zero and the purge of all listed accounts. That the vault can afford a payment (CanPay, Spec/Accept) and that the call was not executed are taken in the state before the repair."
  },
  {
   "property": "C180",
   "status": "proved",
   "theorems": [
    "Verif.C180_root",
    "Verif.C180_history"
   ],
   "note": "Single call and histories of root calls and block changes. About the calls of the modelled pallets only: in a runtime root may also use other pallets (for instance set storage directly)."
  },
  {
   "property": "C181",
   "status": "proved",
   "theorems": [
    "Verif.C181_reach",
    "Verif.C181_together"
   ],
   "note": "Single call (C181_reach) and groups over histories (C181_together). Shards without a configuration are not covered: any enclave may configure them first (C79). The exception for the status is needed, see the last example: an enclave of retired code enters the status of the shard that bears its measurement by publishing a hash."
  }
 ]
}