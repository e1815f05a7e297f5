import Verif.Props.Accept
import Verif.Props.Armour
import Verif.Props.Bridge
import Verif.Props.Build
import Verif.Props.Claims
import Verif.Props.ClaimsFate
import Verif.Props.Confirmations
import Verif.Props.Effect
import Verif.Props.EnclaveInfo
import Verif.Props.Encoding
import Verif.Props.EphemeralKey
import Verif.Props.ErrorCodes
import Verif.Props.Escapes
import Verif.Props.Events
import Verif.Props.Fees
import Verif.Props.Frame
import Verif.Props.Growth
import Verif.Props.Hinder
import Verif.Props.History
import Verif.Props.LastActivity
import Verif.Props.LastCollateral
import Verif.Props.LastRegistration
import Verif.Props.LastWrite
import Verif.Props.Ledger
import Verif.Props.Lifecycle
import Verif.Props.Limits
import Verif.Props.LimitsLast
import Verif.Props.LimitsMore
import Verif.Props.Locality
import Verif.Props.Migrations
import Verif.Props.Networks
import Verif.Props.News
import Verif.Props.Outsider
import Verif.Props.PckCert
import Verif.Props.Platform
import Verif.Props.Pool
import Verif.Props.Primitives
import Verif.Props.Published
import Verif.Props.QuotingEnclave
import Verif.Props.RawMigrations
import Verif.Props.RawStorage
import Verif.Props.Reach
import Verif.Props.Reads
import Verif.Props.Reasons
import Verif.Props.Refusal
import Verif.Props.Renewal
import Verif.Props.Retry
import Verif.Props.RootLimits
import Verif.Props.Scale
import Verif.Props.ScaleEvents
import Verif.Props.ScaleRun
import Verif.Props.ScaleXcm
import Verif.Props.Sgx
import Verif.Props.Sharp
import Verif.Props.Sidechain
import Verif.Props.StorageMap
import Verif.Props.Succession
import Verif.Props.Takeover
import Verif.Props.Teeracle
import Verif.Props.Teerdays
import Verif.Props.TeerdaysAge
import Verif.Props.TeerdaysExit
import Verif.Props.TeerdaysTotal
import Verif.Props.Teerex
import Verif.Props.Texts
import Verif.Props.Timeline
import Verif.Props.Trust
import Verif.Props.Upgrades
import Verif.Props.Vesting
import Verif.Props.Weights
import Verif.Props.Xcm

/-!
# Axioms of the property theorems

Printed at build time; allowed are `propext`, `Classical.choice` and `Quot.sound`.
-/

#print axioms Verif.C01_sharp
#print axioms Verif.C01_refuted
#print axioms Verif.C01_lock_covers_bond_and_pending_partial
#print axioms Verif.C02_sharp
#print axioms Verif.C02_refuted
#print axioms Verif.C02_locked_until_deadline_partial
#print axioms Verif.C03_update_update
#print axioms Verif.C03_many_updates
#print axioms Verif.C03_history
#print axioms Verif.C04_tokentime_is_integral
#print axioms Verif.C04_tokentime_le_integral
#print axioms Verif.C04_update_stores
#print axioms Verif.C05_no_saturation
#print axioms Verif.C05_owned
#print axioms Verif.C06_sharp
#print axioms Verif.C06_refuted
#print axioms Verif.C06_prorata_partial
#print axioms Verif.C06_whole_bond
#print axioms Verif.C07_sharp
#print axioms Verif.C07_bond_covered
#print axioms Verif.C07_refuted
#print axioms Verif.C07_lock_le_free_partial
#print axioms Verif.C08_refused
#print axioms Verif.C08_pending_stable
#print axioms Verif.C08_pending_origin
#print axioms Verif.C09_foreign_operations
#print axioms Verif.C10_released_at_most_once
#print axioms Verif.C10_released_exactly
#print axioms Verif.C11_sharp
#print axioms Verif.C11_refuted
#print axioms Verif.C11_left_locked_partial
#print axioms Verif.C11_whole_bond_partial
#print axioms Verif.C12_sovereign_own_key
#print axioms Verif.C13_proxied_address
#print axioms Verif.C13_distinct_keys
#print axioms Verif.C14_quote_authentic
#print axioms Verif.C15_no_slack
#print axioms Verif.C15_no_padding
#print axioms Verif.C16_no_panic
#print axioms Verif.C16_register_no_panic
#print axioms Verif.C17_ias_fresh
#print axioms Verif.C17_no_replay
#print axioms Verif.C18_unregister_iff
#print axioms Verif.C18_unregister_proxied_iff
#print axioms Verif.C18_only_unregister_removes
#print axioms Verif.C19_no_debug
#print axioms Verif.C19_debug_bit
#print axioms Verif.C20_skip_needs_flag
#print axioms Verif.C20_flags_root_only
#print axioms Verif.C20_all_attested
#print axioms Verif.C21_first_dominated
#print axioms Verif.C21_rejects_iff
#print axioms Verif.C21_monotone
#print axioms Verif.C21_registration
#print axioms Verif.C22_collateral_signed
#print axioms Verif.C22_register_tcb_iff
#print axioms Verif.C22_register_qe_iff
#print axioms Verif.C22_register_tcb_stores
#print axioms Verif.C22_register_qe_stores
#print axioms Verif.C23_sharp
#print axioms Verif.C23_refuted
#print axioms Verif.C23_collateral_was_valid_partial
#print axioms Verif.C24_sharp
#print axioms Verif.C24_refuted
#print axioms Verif.C24_replacement_valid_partial
#print axioms Verif.C25_qe_check_iff
#print axioms Verif.C26_entries_bounded
#print axioms Verif.C26_long_refused
#print axioms Verif.C27_paid_once
#print axioms Verif.C27_first_pays
#print axioms Verif.C28_counter
#print axioms Verif.C29_status_ok
#print axioms Verif.C29_touch_own_entry
#print axioms Verif.C30_upgrade_timeline
#print axioms Verif.C30_first_immediately
#print axioms Verif.C30_lazy_invisible
#print axioms Verif.C31_config_authorized
#print axioms Verif.C32_right_enclave
#print axioms Verif.C32_confirm_iff
#print axioms Verif.C33_shield_exact
#print axioms Verif.C33_unshield_exact
#print axioms Verif.C34_refuted
#print axioms Verif.C34_debit_cases_partial
#print axioms Verif.C34_ordinary_accounts_partial
#print axioms Verif.C34_sharp
#print axioms Verif.C35_publish_hash
#print axioms Verif.C36_purge_exact
#print axioms Verif.C37_most_recent
#print axioms Verif.C38_refuted
#print axioms Verif.C38_fingerprint_stops_partial
#print axioms Verif.C38_sharp
#print axioms Verif.C39_growing
#print axioms Verif.C39_linked
#print axioms Verif.C40_only_primary
#print axioms Verif.C40_confirm_iff
#print axioms Verif.C41_sharp
#print axioms Verif.C41_refuted
#print axioms Verif.C41_primary_partial
#print axioms Verif.C41_after_purges_partial
#print axioms Verif.C42_no_panic
#print axioms Verif.C43_whitelist_ok
#print axioms Verif.C43_root_only
#print axioms Verif.C43_removed
#print axioms Verif.C44_rates
#print axioms Verif.C44_blobs
#print axioms Verif.C44_provenance
#print axioms Verif.C44_rate_iff
#print axioms Verif.C44_blob_provenance
#print axioms Verif.C44_blob_iff
#print axioms Verif.C45_bounds
#print axioms Verif.C46_no_zero
#print axioms Verif.C46_read_back
#print axioms Verif.C46_default
#print axioms Verif.C47_conserved
#print axioms Verif.C47_modulo
#print axioms Verif.C48_solvent
#print axioms Verif.C48_genesis
#print axioms Verif.C48_no_underflow
#print axioms Verif.C49_refuted
#print axioms Verif.C49_no_overwrite_partial
#print axioms Verif.C49_sharp
#print axioms Verif.C50_in_full
#print axioms Verif.C50_once
#print axioms Verif.C51_message
#print axioms Verif.C51_injective
#print axioms Verif.C51_recover
#print axioms Verif.C52_validate_iff
#print axioms Verif.C52_dispatch
#print axioms Verif.C52_tag
#print axioms Verif.C52_tag_any
#print axioms Verif.C53_statement
#print axioms Verif.C53_owner
#print axioms Verif.C54_refuted
#print axioms Verif.C54_move_partial
#print axioms Verif.C54_fresh_partial
#print axioms Verif.C54_sharp
#print axioms Verif.C55_refuted
#print axioms Verif.C55_no_panic_partial
#print axioms Verif.C55_sharp
#print axioms Verif.C56_prevalidate_iff
#print axioms Verif.C56_refuted
#print axioms Verif.C56_failure_partial
#print axioms Verif.C56_sharp
#print axioms Verif.C57_refuted
#print axioms Verif.C57_arrives_partial
#print axioms Verif.C57_sharp
#print axioms Verif.C58_sharp
#print axioms Verif.C58_refuted
#print axioms Verif.C58_back_partial
#print axioms Verif.C58_inverse_partial
#print axioms Verif.C59_register_iff
#print axioms Verif.C59_unregister_iff
#print axioms Verif.C59_lookup
#print axioms Verif.C60_sends_iff
#print axioms Verif.C60_one_message
#print axioms Verif.C60_history
#print axioms Verif.C61_bytes
#print axioms Verif.C61_roundtrip
#print axioms Verif.C61_injective
#print axioms Verif.C62_program
#print axioms Verif.C62_complete
#print axioms Verif.C62_runs
#print axioms Verif.C63_trapped_iff
#print axioms Verif.C63_unchanged
#print axioms Verif.C63_weight
#print axioms Verif.C64_matches_iff
#print axioms Verif.C64_convert_back
#print axioms Verif.C65_from_0
#print axioms Verif.C65_from_1
#print axioms Verif.C65_done
#print axioms Verif.C65_once
#print axioms Verif.C65_version
#print axioms Verif.C65_types
#print axioms Verif.C66_from32
#print axioms Verif.C66_from64
#print axioms Verif.C66_injective
#print axioms Verif.C66_sizes
#print axioms Verif.C67_fmspc
#print axioms Verif.C67_cpusvn
#print axioms Verif.C67_pcesvn
#print axioms Verif.C67_no_panic
#print axioms Verif.C67_length
#print axioms Verif.C68_failed
#print axioms Verif.C68_replay
#print axioms Verif.C68_frame
#print axioms Verif.C68_outside
#print axioms Verif.C68_moneyless
#print axioms Verif.C69_increase
#print axioms Verif.C69_decrease
#print axioms Verif.C69_covered
#print axioms Verif.C69_balanced
#print axioms Verif.C69_history
#print axioms Verif.C70_sharp
#print axioms Verif.C70_refuted
#print axioms Verif.C70_cert_valid_2019_partial
#print axioms Verif.C71_sharp
#print axioms Verif.C71_refuted
#print axioms Verif.C71_status_truthful_partial
#print axioms Verif.C71_status_shown_partial
#print axioms Verif.C72_sharp
#print axioms Verif.C72_refuted
#print axioms Verif.C72_dcap_renewal_partial
#print axioms Verif.C73_exact
#print axioms Verif.C73_total
#print axioms Verif.C73_injective
#print axioms Verif.C74_refuted
#print axioms Verif.C74_unshield_partial
#print axioms Verif.C74_frame_partial
#print axioms Verif.C74_sharp
#print axioms Verif.C75_extract
#print axioms Verif.C75_roundtrip
#print axioms Verif.C76_ias_authentic
#print axioms Verif.C76_ias_constants
#print axioms Verif.C77_sharp
#print axioms Verif.C77_refuted
#print axioms Verif.C77_no_panic_partial
#print axioms Verif.C78_refuted
#print axioms Verif.C78_listed_or_room_partial
#print axioms Verif.C78_after_purge_partial
#print axioms Verif.C78_sharp
#print axioms Verif.C79_refuted
#print axioms Verif.C79_registered_partial
#print axioms Verif.C79_sharp
#print axioms Verif.C80_refuted
#print axioms Verif.C80_failure_partial
#print axioms Verif.C80_sharp
#print axioms Verif.C81_refuted
#print axioms Verif.C81_mint_partial
#print axioms Verif.C81_sharp
#print axioms Verif.C82_refuted
#print axioms Verif.C82_overflow_partial
#print axioms Verif.C82_ok_partial
#print axioms Verif.C83_stops_partial
#print axioms Verif.C83_refuted
#print axioms Verif.C84_sharp
#print axioms Verif.C84_refuted
#print axioms Verif.C84_alone_partial
#print axioms Verif.C84_versions_partial
#print axioms Verif.C85_refuted
#print axioms Verif.C85_length_partial
#print axioms Verif.C85_wrong_partial
#print axioms Verif.C86_refuted
#print axioms Verif.C86_panic_partial
#print axioms Verif.C87_unbond_not_blocked
#print axioms Verif.C87_withdraw_not_blocked
#print axioms Verif.C87_exit
#print axioms Verif.C87_exit_always_possible
#print axioms Verif.C88_only_own_operations_count
#print axioms Verif.C88_any_schedule
#print axioms Verif.C89_written
#print axioms Verif.C89_read_iff
#print axioms Verif.C89_round_trip
#print axioms Verif.C89_unambiguous
#print axioms Verif.C90_refuted
#print axioms Verif.C90_no_panic_partial
#print axioms Verif.C90_panics_partial
#print axioms Verif.C90_sharp
#print axioms Verif.C91_identity_round_trip
#print axioms Verif.C91_tcb_info_round_trip
#print axioms Verif.C92_tcb_info
#print axioms Verif.C92_identity
#print axioms Verif.C92_registration
#print axioms Verif.C92_null_is_absent
#print axioms Verif.C92_repeated_tcb_info
#print axioms Verif.C92_repeated_identity
#print axioms Verif.C93_accepted_partial
#print axioms Verif.C93_refuted
#print axioms Verif.C93_published_partial
#print axioms Verif.C93_sharp
#print axioms Verif.C94_stored_as_published
#print axioms Verif.C94_published
#print axioms Verif.C95_stored_as_published
#print axioms Verif.C95_accepted
#print axioms Verif.C95_published
#print axioms Verif.C95_published_accepted
#print axioms Verif.C96_refuted
#print axioms Verif.C96_free_failures_partial
#print axioms Verif.C97_free_effects
#print axioms Verif.C97_outsider_pays
#print axioms Verif.C98_no_more
#print axioms Verif.C98_no_less
#print axioms Verif.C99_solvent
#print axioms Verif.C99_solvent_all
#print axioms Verif.C99_nothing_lost
#print axioms Verif.C100_refuted
#print axioms Verif.C100_older_partial
#print axioms Verif.C100_sharp
#print axioms Verif.C101_refuted
#print axioms Verif.C101_removed_partial
#print axioms Verif.C101_sharp
#print axioms Verif.C102_refuted
#print axioms Verif.C102_origin_partial
#print axioms Verif.C102_sharp
#print axioms Verif.C103_refuted
#print axioms Verif.C103_until_new_claim_partial
#print axioms Verif.C103_sharp
#print axioms Verif.C104_refuted
#print axioms Verif.C104_stays_partial
#print axioms Verif.C104_sharp
#print axioms Verif.C105_exactly_when
#print axioms Verif.C106_attests_once
#print axioms Verif.C107_bonds_told
#print axioms Verif.C108_refuted
#print axioms Verif.C108_registered_partial
#print axioms Verif.C108_sharp
#print axioms Verif.C109_settings_told
#print axioms Verif.C110_refuted
#print axioms Verif.C110_configured_partial
#print axioms Verif.C110_sharp
#print axioms Verif.C111_oracle_told
#print axioms Verif.C112_assets_told
#print axioms Verif.C113_refuted
#print axioms Verif.C113_open_partial
#print axioms Verif.C113_sharp
#print axioms Verif.C114_swaps_told
#print axioms Verif.C115_refuted
#print axioms Verif.C115_silent_partial
#print axioms Verif.C116_teerdays
#print axioms Verif.C116_teerex
#print axioms Verif.C116_shards
#print axioms Verif.C116_claims
#print axioms Verif.C117_calls
#print axioms Verif.C118_pallets
#print axioms Verif.C118_keys
#print axioms Verif.C118_first_key
#print axioms Verif.C119_in_range
#print axioms Verif.C119_reads_back
#print axioms Verif.C120_publish_weight_partial
#print axioms Verif.C120_refuted
#print axioms Verif.C121_changes_partial
#print axioms Verif.C121_covered_partial
#print axioms Verif.C121_each_refuted
#print axioms Verif.C121_refuted
#print axioms Verif.C122_news
#print axioms Verif.C122_silence
#print axioms Verif.C123_sharp
#print axioms Verif.C123_burned_partial
#print axioms Verif.C123_refuted
#print axioms Verif.C124_only_own_places
#print axioms Verif.C125_same_effect
#print axioms Verif.C125_same_error
#print axioms Verif.C126_any_order
#print axioms Verif.C126_undisturbed
#print axioms Verif.C126_any_order_error
#print axioms Verif.C126_undisturbed_error
#print axioms Verif.C127_one_value
#print axioms Verif.C127_bytes_tell
#print axioms Verif.C127_entries_tell
#print axioms Verif.C128_sharp
#print axioms Verif.C128_sizes_partial
#print axioms Verif.C128_refuted
#print axioms Verif.C129_first
#print axioms Verif.C129_second
#print axioms Verif.C129_sequence
#print axioms Verif.C129_guarantee
#print axioms Verif.C129_guarantee_second
#print axioms Verif.C130_calls
#print axioms Verif.C130_effects
#print axioms Verif.C131_fate
#print axioms Verif.C131_total
#print axioms Verif.C131_from_genesis
#print axioms Verif.C132_genesis
#print axioms Verif.C133_age
#print axioms Verif.C134_refuted
#print axioms Verif.C134_signed_partial
#print axioms Verif.C134_unchecked_partial
#print axioms Verif.C134_sharp
#print axioms Verif.C135_end
#print axioms Verif.C135_refuted
#print axioms Verif.C135_room_partial
#print axioms Verif.C135_sharp
#print axioms Verif.C136_reason
#print axioms Verif.C136_accepted
#print axioms Verif.C137_panics_exactly
#print axioms Verif.C138_location
#print axioms Verif.C138_calls
#print axioms Verif.C138_stored
#print axioms Verif.C139_event
#print axioms Verif.C139_log
#print axioms Verif.C139_in_range
#print axioms Verif.C139_history
#print axioms Verif.C140_only
#print axioms Verif.C140_code
#print axioms Verif.C140_reason
#print axioms Verif.C140_never
#print axioms Verif.C141_from_0
#print axioms Verif.C141_from_1
#print axioms Verif.C141_done
#print axioms Verif.C141_in_use
#print axioms Verif.C141_outside
#print axioms Verif.C141_refines
#print axioms Verif.C142_sharp
#print axioms Verif.C142_refuted
#print axioms Verif.C142_partial
#print axioms Verif.C143_tcb_info
#print axioms Verif.C143_read
#print axioms Verif.C144_unsigned
#print axioms Verif.C144_signed
#print axioms Verif.C145_sharp
#print axioms Verif.C145_refuted
#print axioms Verif.C145_partial
#print axioms Verif.C146_stable
#print axioms Verif.C146_spent
#print axioms Verif.C147_sharp
#print axioms Verif.C147_refuted
#print axioms Verif.C147_bonds_partial
#print axioms Verif.C147_tokentime_partial
#print axioms Verif.C148_held
#print axioms Verif.C148_released
#print axioms Verif.C148_ends
#print axioms Verif.C149_escapes
#print axioms Verif.C149_escaped_family
#print axioms Verif.C149_escaped_identity
#print axioms Verif.C149_one_meaning
#print axioms Verif.C149_reader
#print axioms Verif.C149_tcb_info
#print axioms Verif.C149_identity
#print axioms Verif.C149_layout
#print axioms Verif.C149_further_members
#print axioms Verif.C149_not_json
#print axioms Verif.C149_report
#print axioms Verif.C150_identity_accepted
#print axioms Verif.C150_calendar
#print axioms Verif.C150_order
#print axioms Verif.C150_tcb_info_window
#print axioms Verif.C150_identity_window
#print axioms Verif.C150_tcb_info_accepted
#print axioms Verif.C150_report_time
#print axioms Verif.C151_one_meaning
#print axioms Verif.C151_text
#print axioms Verif.C151_reader
#print axioms Verif.C151_report
#print axioms Verif.C151_accepted
#print axioms Verif.C152_chain_partial
#print axioms Verif.C152_layout_partial
#print axioms Verif.C152_carriage_return
#print axioms Verif.C152_refuted
#print axioms Verif.C152_sharp
#print axioms Verif.C153_platform_partial
#print axioms Verif.C153_high_refused
#print axioms Verif.C153_one_extension
#print axioms Verif.C153_sharp
#print axioms Verif.C153_refuted
#print axioms Verif.C153_misread
#print axioms Verif.C154_quote_partial
#print axioms Verif.C154_proxied_partial
#print axioms Verif.C154_other_sizes_refused
#print axioms Verif.C154_documents_partial
#print axioms Verif.C154_high_refused
#print axioms Verif.C154_sharp
#print axioms Verif.C154_refuted
#print axioms Verif.C155_exactly
#print axioms Verif.C156_histories
#print axioms Verif.C156_one_course
#print axioms Verif.C157_table
#print axioms Verif.C157_lookup
#print axioms Verif.C158_exactly
#print axioms Verif.C158_refusals
#print axioms Verif.C158_reads
#print axioms Verif.C159_harmless
#print axioms Verif.C159_refused
#print axioms Verif.C159_sidechain
#print axioms Verif.C159_unshield
#print axioms Verif.C159_configuration
#print axioms Verif.C159_again
#print axioms Verif.C160_same
#print axioms Verif.C160_difference
#print axioms Verif.C160_histories
#print axioms Verif.C160_indistinguishable
#print axioms Verif.C160_genesis
#print axioms Verif.C161_only_these
#print axioms Verif.C161_history
#print axioms Verif.C161_teerdays_own
#print axioms Verif.C161_claims_independent
#print axioms Verif.C161_possible
#print axioms Verif.C162_listed_partial
#print axioms Verif.C162_good_identities_partial
#print axioms Verif.C162_sharp
#print axioms Verif.C162_refuted
#print axioms Verif.C163_exact
#print axioms Verif.C163_one_network
#print axioms Verif.C163_same_prefix
#print axioms Verif.C164_sovereign
#print axioms Verif.C164_proxied
#print axioms Verif.C164_one_identity
#print axioms Verif.C164_key_back
#print axioms Verif.C164_last_sovereign
#print axioms Verif.C164_last_proxied
#print axioms Verif.C165_sharp
#print axioms Verif.C165_refuted
#print axioms Verif.C165_same_author_partial
#print axioms Verif.C166_in_time
#print axioms Verif.C166_overdue
#print axioms Verif.C166_proxied_in_time
#print axioms Verif.C167_refuted
#print axioms Verif.C167_less_than_a_day_partial
#print axioms Verif.C167_sharp
#print axioms Verif.C168_first_goes_on
#print axioms Verif.C169_listed_goes_on
#print axioms Verif.C170_again
#print axioms Verif.C170_from_0
#print axioms Verif.C170_registry
#print axioms Verif.C170_from_1
#print axioms Verif.C171_covered_partial
#print axioms Verif.C171_each_refuted
#print axioms Verif.C171_refuted
#print axioms Verif.C171_sharp
#print axioms Verif.C172_last_counts
#print axioms Verif.C172_judged
#print axioms Verif.C172_nothing_else
#print axioms Verif.C173_exchange_rate
#print axioms Verif.C173_oracle_data
#print axioms Verif.C173_whitelist
#print axioms Verif.C173_flags
#print axioms Verif.C173_location
#print axioms Verif.C174_entry
#print axioms Verif.C175_order
#print axioms Verif.C175_finalizer
#print axioms Verif.C175_latest
#print axioms Verif.C176_timeline
#print axioms Verif.C177_created
#print axioms Verif.C177_growth
#print axioms Verif.C177_removed
#print axioms Verif.C177_removed_in
#print axioms Verif.C177_permanent
#print axioms Verif.C178_outsider
#print axioms Verif.C178_together
#print axioms Verif.C178_money
#print axioms Verif.C179_takeover
#print axioms Verif.C180_root
#print axioms Verif.C180_history
#print axioms Verif.C181_reach
#print axioms Verif.C181_together
