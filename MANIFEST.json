{
 "claims": [
  {
   "property": "C01",
   "status": "proved",
   "theorems": [
    "Xorca.Props.C01_exact_mint_amount"
   ],
   "note": ""
  },
  {
   "property": "C02",
   "status": "proved",
   "theorems": [
    "Xorca.Props.C02_exact_redemption_amount"
   ],
   "note": ""
  },
  {
   "property": "C03",
   "status": "proved",
   "theorems": [
    "Xorca.Props.C03_mint_conversion_exact",
    "Xorca.Props.C03_redeem_conversion_exact",
    "Xorca.Props.C03_mint_conversion_total",
    "Xorca.Props.C03_redeem_conversion_total",
    "Xorca.Props.C03_head_room_needed"
   ],
   "note": ""
  },
  {
   "property": "C04",
   "status": "proved",
   "theorems": [
    "Xorca.Props.C04_stake_unstake_no_profit",
    "Xorca.Props.C04_stake_unstake_profit_witness",
    "Xorca.C04_stake_then_unstake"
   ],
   "note": "Second theorem is the witness that the zero-supply case can profit."
  },
  {
   "property": "C05",
   "status": "proved",
   "theorems": [
    "Xorca.Props.C05_unstake_stake_no_profit",
    "Xorca.Props.C05_whole_supply_witness",
    "Xorca.C05_unstake_then_stake"
   ],
   "note": "Second theorem is the witness for redeeming the whole supply."
  },
  {
   "property": "C06",
   "status": "proved",
   "theorems": [
    "Xorca.Props.C06_split_stake",
    "Xorca.C06_any_number_of_parts",
    "Xorca.C06_two_stakes"
   ],
   "note": ""
  },
  {
   "property": "C07",
   "status": "proved",
   "theorems": [
    "Xorca.Props.C07_split_unstake",
    "Xorca.C07_any_number_of_parts",
    "Xorca.C07_two_unstakes"
   ],
   "note": ""
  },
  {
   "property": "C08",
   "status": "proved",
   "theorems": [
    "Xorca.Props.C08_monotone_and_tight"
   ],
   "note": ""
  },
  {
   "property": "C09",
   "status": "proved",
   "theorems": [
    "Xorca.C09_no_dilution"
   ],
   "note": ""
  },
  {
   "property": "C10",
   "status": "proved",
   "theorems": [
    "Xorca.Props.C10_inflation_attack",
    "Xorca.C10_inflation_attack_calls"
   ],
   "note": ""
  },
  {
   "property": "C11",
   "status": "proved",
   "theorems": [
    "Xorca.C11_solvency"
   ],
   "note": ""
  },
  {
   "property": "C12",
   "status": "proved",
   "theorems": [
    "Xorca.C12_escrow_is_sum"
   ],
   "note": ""
  },
  {
   "property": "C13",
   "status": "proved",
   "theorems": [
    "Xorca.C13_backing",
    "Xorca.C13_stake_mints_at_most",
    "Xorca.C13_unstake_sets_aside_at_least"
   ],
   "note": ""
  },
  {
   "property": "C14",
   "status": "proved",
   "theorems": [
    "Xorca.Props.C14_withdraw_effects"
   ],
   "note": ""
  },
  {
   "property": "C15",
   "status": "proved",
   "theorems": [
    "Xorca.Props.C15_unstake_effects"
   ],
   "note": ""
  },
  {
   "property": "C16",
   "status": "proved",
   "theorems": [
    "Xorca.Props.C16_stake_effects"
   ],
   "note": ""
  },
  {
   "property": "C17",
   "status": "proved",
   "theorems": [
    "Xorca.C17_cool_down_enforced"
   ],
   "note": ""
  },
  {
   "property": "C18",
   "status": "proved",
   "theorems": [
    "Xorca.C18_records_immutable"
   ],
   "note": ""
  },
  {
   "property": "C19",
   "status": "proved",
   "theorems": [
    "Xorca.C19_no_double_withdrawal"
   ],
   "note": ""
  },
  {
   "property": "C20",
   "status": "proved",
   "theorems": [
    "Xorca.C20_only_unstaker_paid"
   ],
   "note": ""
  },
  {
   "property": "C21",
   "status": "proved",
   "theorems": [
    "Xorca.C21_matured_withdrawal_succeeds"
   ],
   "note": ""
  },
  {
   "property": "C22",
   "status": "proved",
   "theorems": [
    "Xorca.C22_prefunding_harmless"
   ],
   "note": ""
  },
  {
   "property": "C23",
   "status": "proved",
   "theorems": [
    "Xorca.Props.C23_set_cool_down",
    "Xorca.Props.C23_set_authority"
   ],
   "note": ""
  },
  {
   "property": "C24",
   "status": "proved",
   "theorems": [
    "Xorca.C24_cool_down_nonneg"
   ],
   "note": ""
  },
  {
   "property": "C25",
   "status": "proved",
   "theorems": [
    "Xorca.Props.C25_initialize_effects"
   ],
   "note": ""
  },
  {
   "property": "C26",
   "status": "proved",
   "theorems": [
    "Xorca.C26_state_permanent",
    "Xorca.C26_initialised_once"
   ],
   "note": ""
  },
  {
   "property": "C27",
   "status": "proved",
   "theorems": [
    "Xorca.Props.C27_fresh_safe_mint"
   ],
   "note": ""
  },
  {
   "property": "C28",
   "status": "proved",
   "theorems": [
    "Xorca.C28_stake_dust_only",
    "Xorca.C28_stake_dust_refused",
    "Xorca.C28_unstake_dust_only",
    "Xorca.C28_unstake_dust_refused"
   ],
   "note": ""
  },
  {
   "property": "C29",
   "status": "proved",
   "theorems": [
    "Xorca.Props.C29_stake_event",
    "Xorca.Props.C29_unstake_event",
    "Xorca.Props.C29_withdraw_event",
    "Xorca.Props.C29_set_authority_event"
   ],
   "note": ""
  },
  {
   "property": "C30",
   "status": "proved",
   "theorems": [
    "Xorca.C30_client_bytes_decode",
    "Xorca.C30_encodings_differ",
    "Xorca.C30_js_identifies"
   ],
   "note": ""
  },
  {
   "property": "C31",
   "status": "proved",
   "theorems": [
    "Xorca.C31_events_decode",
    "Xorca.C31_events_differ",
    "Xorca.C31_logs_decode"
   ],
   "note": ""
  },
  {
   "property": "C32",
   "status": "proved",
   "theorems": [
    "Xorca.C32_state_decoding",
    "Xorca.C32_record_decoding",
    "Xorca.C32_decodable",
    "Xorca.C32_reachable_accounts_decode"
   ],
   "note": ""
  },
  {
   "property": "C33",
   "status": "proved",
   "theorems": [
    "Xorca.C33_orca_conserved",
    "Xorca.C33_xorca_follows_supply"
   ],
   "note": ""
  },
  {
   "property": "C34",
   "status": "proved",
   "theorems": [
    "Xorca.C34_only_listed_accounts",
    "Xorca.C34_bystanders_untouched"
   ],
   "note": ""
  },
  {
   "property": "C35",
   "status": "proved",
   "theorems": [
    "Xorca.C35_lamports_conserved",
    "Xorca.C35_rent_refunded"
   ],
   "note": ""
  },
  {
   "property": "C36",
   "status": "proved",
   "theorems": [
    "Xorca.C36_forged_state_rejected"
   ],
   "note": ""
  },
  {
   "property": "C37",
   "status": "proved",
   "theorems": [
    "Xorca.C37_forged_vault_rejected"
   ],
   "note": ""
  },
  {
   "property": "C38",
   "status": "proved",
   "theorems": [
    "Xorca.C38_record_addresses_differ",
    "Xorca.C38_kinds_differ"
   ],
   "note": ""
  },
  {
   "property": "C39",
   "status": "proved",
   "theorems": [
    "Xorca.C39_rust_conversions"
   ],
   "note": ""
  },
  {
   "property": "C40",
   "status": "proved",
   "theorems": [
    "Xorca.C40_js_conversions"
   ],
   "note": ""
  },
  {
   "property": "C41",
   "status": "partial",
   "theorems": [
    "Xorca.C41_listed_partial",
    "Xorca.C41_index_255_not_searched",
    "Xorca.C41_index_255_missing_witness"
   ],
   "note": "False for index 255: no admitted bound makes either client look at it. Witness on a reachable ledger with the real hash functions; proved for all indices below the bound."
  },
  {
   "property": "C42",
   "status": "proved",
   "theorems": [
    "Xorca.C42_rust_rate",
    "Xorca.C42_js_rate",
    "Xorca.C42_rate_available"
   ],
   "note": ""
  },
  {
   "property": "C43",
   "status": "proved",
   "theorems": [
    "Xorca.C43_error_codes"
   ],
   "note": ""
  },
  {
   "property": "C44",
   "status": "proved",
   "theorems": [
    "Xorca.C44_moved_only_by"
   ],
   "note": ""
  },
  {
   "property": "C45",
   "status": "proved",
   "theorems": [
    "Xorca.C45_flow_accounting"
   ],
   "note": ""
  },
  {
   "property": "C46",
   "status": "proved",
   "theorems": [
    "Xorca.C46_client_account_lists"
   ],
   "note": ""
  },
  {
   "property": "C47",
   "status": "proved",
   "theorems": [
    "Xorca.C47_stake_succeeds"
   ],
   "note": ""
  },
  {
   "property": "C48",
   "status": "proved",
   "theorems": [
    "Xorca.C48_unstake_succeeds"
   ],
   "note": ""
  },
  {
   "property": "C49",
   "status": "proved",
   "theorems": [
    "Xorca.C49_vault_backing_never_short",
    "Xorca.C49_escrow_never_short",
    "Xorca.C49_stake_arithmetic",
    "Xorca.C49_unstake_arithmetic",
    "Xorca.C49_escrow_addition_fits",
    "Xorca.C49_unstake_clock",
    "Xorca.C49_withdraw_clock"
   ],
   "note": ""
  },
  {
   "property": "C50",
   "status": "proved",
   "theorems": [
    "Xorca.C50_open_index_refused",
    "Xorca.C50_index_reusable"
   ],
   "note": ""
  },
  {
   "property": "C51",
   "status": "proved",
   "theorems": [
    "Xorca.C51_wrong_program_id",
    "Xorca.C51_unknown_instruction",
    "Xorca.C51_too_few_accounts"
   ],
   "note": ""
  },
  {
   "property": "C52",
   "status": "proved",
   "theorems": [
    "Xorca.C52_no_panic"
   ],
   "note": ""
  },
  {
   "property": "C53",
   "status": "proved",
   "theorems": [
    "Xorca.C53_rotation_is_immediate"
   ],
   "note": ""
  },
  {
   "property": "C54",
   "status": "proved",
   "theorems": [
    "Xorca.C54_error_codes"
   ],
   "note": ""
  },
  {
   "property": "C55",
   "status": "proved",
   "theorems": [
    "Xorca.C55_initialize_succeeds",
    "Xorca.C55_addresses_differ"
   ],
   "note": ""
  },
  {
   "property": "C56",
   "status": "proved",
   "theorems": [
    "Xorca.C56_blocked_forever",
    "Xorca.C56_anyone_can_block",
    "Xorca.C56_witness"
   ],
   "note": ""
  },
  {
   "property": "C57",
   "status": "proved",
   "theorems": [
    "Xorca.C57_account_table_enforced",
    "Xorca.C57_clients_set_declared_flags"
   ],
   "note": ""
  },
  {
   "property": "C58",
   "status": "proved",
   "theorems": [
    "Xorca.C58_stake_accepted_iff",
    "Xorca.C58_unstake_accepted_iff",
    "Xorca.C58_withdraw_accepted_iff",
    "Xorca.C58_set_accepted_iff",
    "Xorca.C58_initialize_accepted_iff"
   ],
   "note": ""
  },
  {
   "property": "C59",
   "status": "proved",
   "theorems": [
    "Xorca.C59_stake_quote_exact",
    "Xorca.C59_unstake_quote_exact",
    "Xorca.C59_stale_quotes"
   ],
   "note": ""
  },
  {
   "property": "C60",
   "status": "proved",
   "theorems": [
    "Xorca.C60_record_address_states",
    "Xorca.C60_listed_records_genuine",
    "Xorca.C60_unused_index_usable"
   ],
   "note": ""
  },
  {
   "property": "C61",
   "status": "proved",
   "theorems": [
    "Xorca.C61_rust_listing_fails_iff",
    "Xorca.C61_anyone_can_break_listing"
   ],
   "note": ""
  },
  {
   "property": "C62",
   "status": "proved",
   "theorems": [
    "Xorca.C62_three_reads",
    "Xorca.C62_mixed_reads_witness"
   ],
   "note": ""
  },
  {
   "property": "C63",
   "status": "proved",
   "theorems": [
    "Xorca.C63_books_in_order",
    "Xorca.C63_all_holders_covered",
    "Xorca.C63_holder_can_unstake"
   ],
   "note": ""
  },
  {
   "property": "C64",
   "status": "proved",
   "theorems": [
    "Xorca.C64_no_coalition_profits",
    "Xorca.C64_no_profit_from_nothing",
    "Xorca.C64_no_free_supply"
   ],
   "note": ""
  },
  {
   "property": "C65",
   "status": "proved",
   "theorems": [
    "Xorca.C65_staker_loses_dust"
   ],
   "note": ""
  },
  {
   "property": "C66",
   "status": "proved",
   "theorems": [
    "Xorca.C66_stake_checks",
    "Xorca.C66_unstake_checks",
    "Xorca.C66_withdraw_checks",
    "Xorca.C66_set_checks",
    "Xorca.C66_initialize_checks"
   ],
   "note": ""
  },
  {
   "property": "C67",
   "status": "proved",
   "theorems": [
    "Xorca.C67_stake_script",
    "Xorca.C67_unstake_script",
    "Xorca.C67_withdraw_script",
    "Xorca.C67_set_script",
    "Xorca.C67_initialize_script",
    "Xorca.C67_stake_script_sends_iff",
    "Xorca.C67_unstake_script_sends_iff",
    "Xorca.C67_withdraw_script_sends",
    "Xorca.C67_stake_script_succeeds",
    "Xorca.C67_unstake_script_succeeds",
    "Xorca.C67_withdraw_script_succeeds",
    "Xorca.C67_set_script_accepted_iff",
    "Xorca.C67_initialize_script_succeeds"
   ],
   "note": ""
  },
  {
   "property": "C68",
   "status": "proved",
   "theorems": [
    "Xorca.C68_status_figures",
    "Xorca.C68_rates_are_crosswise",
    "Xorca.C68_labels_right_iff",
    "Xorca.C68_labels_swapped_witness"
   ],
   "note": "The labels printed by the script are swapped; the theorems state which rate is which, when the labels are right, and a witness that they are wrong."
  },
  {
   "property": "C69",
   "status": "proved",
   "theorems": [
    "Xorca.C69_rows_are_records",
    "Xorca.C69_records_have_rows",
    "Xorca.C69_larger_indices_missing",
    "Xorca.C69_created_time",
    "Xorca.C69_missing_and_wrong_time_witness"
   ],
   "note": "Records with index 15 or more are not shown; the creation time is right only for an unchanged cool-down. Both with witness."
  },
  {
   "property": "C70",
   "status": "proved",
   "theorems": [
    "Xorca.C70_decimal_text",
    "Xorca.C70_index_sent",
    "Xorca.C70_index_out_of_range",
    "Xorca.C70_not_a_number_is_index_0",
    "Xorca.C70_seconds_remaining",
    "Xorca.C70_cool_down_argument",
    "Xorca.C70_cool_down_rounded_witness",
    "Xorca.C70_cool_down_error"
   ],
   "note": "Includes the witness of a rounded cool-down and the theorem that an index which is not a number means 0."
  },
  {
   "property": "C71",
   "status": "proved",
   "theorems": [
    "Xorca.C71_price_rise_of_a_call",
    "Xorca.C71_price_rise_of_a_path"
   ],
   "note": ""
  },
  {
   "property": "C72",
   "status": "proved",
   "theorems": [
    "Xorca.C72_price_rise_of_stakes",
    "Xorca.C72_many_victims",
    "Xorca.C72_dust_profit_witness"
   ],
   "note": "The last theorem is the witness that the condition on the number of victims is needed."
  },
  {
   "property": "C73",
   "status": "proved",
   "theorems": [
    "Xorca.C73_every_path_is_a_run",
    "Xorca.C73_every_history_is_a_run"
   ],
   "note": ""
  },
  {
   "property": "C74",
   "status": "proved",
   "theorems": [
    "Xorca.C74_stake_accounts_differ",
    "Xorca.C74_unstake_accounts_differ",
    "Xorca.C74_withdraw_accounts_differ",
    "Xorca.C74_initialize_accounts_differ",
    "Xorca.C74_set_accounts_differ"
   ],
   "note": ""
  },
  {
   "property": "C75",
   "status": "proved",
   "theorems": [
    "Xorca.C75_overflow_stops_unstake",
    "Xorca.C75_authority_can_stop_unstake"
   ],
   "note": "That Stake and Withdraw still work is shown by a concrete example; in general it is C47 and C21."
  },
  {
   "property": "C76",
   "status": "proved",
   "theorems": [
    "Xorca.C76_all_in_use",
    "Xorca.C76_at_most_256",
    "Xorca.C76_own_signature"
   ],
   "note": ""
  },
  {
   "property": "C77",
   "status": "proved",
   "theorems": [
    "Xorca.C77_outside_is_env",
    "Xorca.C77_world_is_path",
    "Xorca.C77_pool_untouched"
   ],
   "note": ""
  },
  {
   "property": "C78",
   "status": "proved",
   "theorems": [
    "Xorca.C78_all_holders_covered",
    "Xorca.C78_no_dilution"
   ],
   "note": ""
  },
  {
   "property": "C79",
   "status": "proved",
   "theorems": [
    "Xorca.C79_token_calls_agree"
   ],
   "note": ""
  },
  {
   "property": "C80",
   "status": "proved",
   "theorems": [
    "Xorca.C80_sent",
    "Xorca.C80_effect",
    "Xorca.C80_succeeds",
    "Xorca.C80_report",
    "Xorca.C80_ready",
    "Xorca.C80_permanent"
   ],
   "note": ""
  },
  {
   "property": "C81",
   "status": "proved",
   "theorems": [
    "Xorca.C81_mint_lost",
    "Xorca.C81_anyone",
    "Xorca.C81_witness"
   ],
   "note": ""
  },
  {
   "property": "C82",
   "status": "proved",
   "theorems": [
    "Xorca.C82_sent",
    "Xorca.C82_effect",
    "Xorca.C82_price",
    "Xorca.C82_succeeds",
    "Xorca.C82_amount_text",
    "Xorca.C82_amount_text_wrong",
    "Xorca.C82_received_doubled",
    "Xorca.C82_received_witness"
   ],
   "note": "The theorems named wrong, doubled and witness state what is wrong: texts that are misread and the printed figure."
  },
  {
   "property": "C83",
   "status": "proved",
   "theorems": [
    "Xorca.C83_sent",
    "Xorca.C83_effect",
    "Xorca.C83_report",
    "Xorca.C83_report_self",
    "Xorca.C83_self_witness"
   ],
   "note": "Includes the witness of the wrong report for a transfer to oneself."
  },
  {
   "property": "C84",
   "status": "proved",
   "theorems": [
    "Xorca.C84_digits",
    "Xorca.C84_rest_ignored",
    "Xorca.C84_own_example"
   ],
   "note": "States the misread texts as theorems."
  },
  {
   "property": "C85",
   "status": "proved",
   "theorems": [
    "Xorca.C85_events_track_pool",
    "Xorca.C85_events_give_price",
    "Xorca.C85_exact_after_trade",
    "Xorca.C85_escrow_from_amounts",
    "Xorca.C85_vault_from_amounts",
    "Xorca.C85_whole_log_tracks_pool",
    "Xorca.C85_cool_down_in_events",
    "Xorca.C85_cool_down_not_logged"
   ],
   "note": "Includes the witness that a change of the cool-down is not logged."
  },
  {
   "property": "C86",
   "status": "proved",
   "theorems": [
    "Xorca.C86_stake_vs_readme",
    "Xorca.C86_unstake_vs_readme",
    "Xorca.C86_readme_formulas_wrong",
    "Xorca.C86_initialize_any_authority",
    "Xorca.C86_unstake_vault_read_only"
   ],
   "note": "States the deviation from the documentation; includes the witness that the documented formulas are wrong."
  },
  {
   "property": "C87",
   "status": "proved",
   "theorems": [
    "Xorca.C87_record_stays_rent_exempt",
    "Xorca.C87_state_stays_rent_exempt",
    "Xorca.C87_state_created_rent_exempt",
    "Xorca.C87_deposit_comes_back"
   ],
   "note": ""
  },
  {
   "property": "C88",
   "status": "proved",
   "theorems": [
    "Xorca.C88_unstake_promise_kept"
   ],
   "note": ""
  },
  {
   "property": "C89",
   "status": "proved",
   "theorems": [
    "Xorca.C89_js_reads_as_program",
    "Xorca.C89_js_reads_accepted_calls",
    "Xorca.C89_js_reads_own",
    "Xorca.C89_js_accounts",
    "Xorca.C89_missing_account_refused",
    "Xorca.C89_parser_does_not_check_kind"
   ],
   "note": "The last theorem is the witness that a parser does not check the kind."
  },
  {
   "property": "C90",
   "status": "proved",
   "theorems": [
    "Xorca.C90_builder_result",
    "Xorca.C90_cpi_result",
    "Xorca.C90_builder_panics",
    "Xorca.C90_cpi_flags_swapped",
    "Xorca.C90_cpi_writable_refused",
    "Xorca.C90_cpi_allowed"
   ],
   "note": "C90_cpi_flags_swapped and C90_cpi_writable_refused state the defect of the CPI builders."
  },
  {
   "property": "C91",
   "status": "proved",
   "theorems": [
    "Xorca.C91_chain_is_history",
    "Xorca.C91_failed_tx_changes_nothing",
    "Xorca.C91_calls_are_committed",
    "Xorca.C91_all_holders_covered",
    "Xorca.C91_no_profit_in_one_tx"
   ],
   "note": ""
  },
  {
   "property": "C92",
   "status": "proved",
   "theorems": [
    "Xorca.C92_depends_only_on_accounts",
    "Xorca.C92_failure_depends_only_on_accounts",
    "Xorca.C92_elsewhere_commutes"
   ],
   "note": ""
  },
  {
   "property": "C93",
   "status": "proved",
   "theorems": [
    "Xorca.C93_dynamic_checks_change_nothing",
    "Xorca.C93_no_dynamic_failure",
    "Xorca.C93_succeeds_iff",
    "Xorca.C93_borrowed_account_refused",
    "Xorca.C93_foreign_write_refused",
    "Xorca.C93_lamport_bound_needed"
   ],
   "note": "The last theorem is the witness that the bound on lamports is needed."
  },
  {
   "property": "C94",
   "status": "proved",
   "theorems": [
    "Xorca.C94_gift_shared_in_proportion",
    "Xorca.C94_one_price",
    "Xorca.C94_stake_around_a_gift",
    "Xorca.C94_momentary_stake_witness",
    "Xorca.C94_residue"
   ],
   "note": "C94_momentary_stake_witness shows that a stake need not last to get its share of a gift."
  },
  {
   "property": "C95",
   "status": "proved",
   "theorems": [
    "Xorca.C95_redemption_quote",
    "Xorca.C95_stake_quote",
    "Xorca.C95_quote_moves_little"
   ],
   "note": ""
  },
  {
   "property": "C96",
   "status": "proved",
   "theorems": [
    "Xorca.C96_first_failed_check_is_reported",
    "Xorca.C96_nothing_else_fails",
    "Xorca.C96_late_check_is_reported",
    "Xorca.C96_success_passes_all",
    "Xorca.C96_error_names_the_check"
   ],
   "note": ""
  },
  {
   "property": "C97",
   "status": "proved",
   "theorems": [
    "Xorca.C97_rust_listing",
    "Xorca.C97_js_listing",
    "Xorca.C97_high_index_not_read",
    "Xorca.C97_index_200_missing_witness"
   ],
   "note": "The last theorem is the witness with the limit of the Solana RPC API."
  },
  {
   "property": "C98",
   "status": "proved",
   "theorems": [
    "Xorca.C98_borsh_round_trip",
    "Xorca.C98_js_state_encoder",
    "Xorca.C98_js_record_encoder",
    "Xorca.C98_state_decodes_as_record",
    "Xorca.C98_fetch_one",
    "Xorca.C98_fetch_all",
    "Xorca.C98_state_fetched_as_record"
   ],
   "note": "C98_state_decodes_as_record and C98_state_fetched_as_record state that the kind of an account is not checked."
  },
  {
   "property": "C99",
   "status": "proved",
   "theorems": [
    "Xorca.C99_stake_and_set",
    "Xorca.C99_rent_rule",
    "Xorca.C99_only_short_payer",
    "Xorca.C99_unstake_payer",
    "Xorca.C99_withdraw_receiver",
    "Xorca.C99_record_covers_wallet",
    "Xorca.C99_composes"
   ],
   "note": ""
  },
  {
   "property": "C100",
   "status": "proved",
   "theorems": [
    "Xorca.C100_everyone_can_unstake",
    "Xorca.C100_everyone_can_withdraw",
    "Xorca.C100_bank_run",
    "Xorca.C100_any_order"
   ],
   "note": ""
  },
  {
   "property": "C101",
   "status": "proved",
   "theorems": [
    "Xorca.C101_withdraw_stake_commute",
    "Xorca.C101_withdraw_unstake_commute",
    "Xorca.C101_withdraws_commute",
    "Xorca.C101_stakes_do_not_commute"
   ],
   "note": ""
  },
  {
   "property": "C102",
   "status": "proved",
   "theorems": [
    "Xorca.C102_js_instruction_encoder",
    "Xorca.C102_js_instruction_ranges",
    "Xorca.C102_js_event_encoder",
    "Xorca.C102_mint_codec",
    "Xorca.C102_token_account_codec",
    "Xorca.C102_mint_decoders"
   ],
   "note": "C102_mint_decoders states the one case in which the decoders differ."
  },
  {
   "property": "C103",
   "status": "proved",
   "theorems": [
    "Xorca.C103_error_texts",
    "Xorca.C103_error_of_code",
    "Xorca.C103_js_code_identifies_error",
    "Xorca.C103_js_code_names_check",
    "Xorca.C103_js_without_code",
    "Xorca.C103_js_other_program"
   ],
   "note": ""
  },
  {
   "property": "C104",
   "status": "proved",
   "theorems": [
    "Xorca.C104_withdrawals_in_any_order",
    "Xorca.C104_unstake_whatever_the_order",
    "Xorca.C104_unstake_order_in_figures",
    "Xorca.C104_stake_whatever_the_order"
   ],
   "note": ""
  },
  {
   "property": "C105",
   "status": "proved",
   "theorems": [
    "Xorca.C105_what_stays",
    "Xorca.C105_next_staker_takes_it",
    "Xorca.C105_attack_after_all",
    "Xorca.C105_keeping_stakers_out",
    "Xorca.C105_incinerated_can_be_burned"
   ],
   "note": "C105_attack_after_all is the witness run. C105_incinerated_can_be_burned rests on the transcription of the SPL token program."
  },
  {
   "property": "C106",
   "status": "proved",
   "theorems": [
    "Xorca.C106_inflation_attack_before",
    "Xorca.C106_keeping_out_before_and_after",
    "Xorca.C106_creation_blocked_before",
    "Xorca.C106_creation_same",
    "Xorca.C106_closing_before_and_after",
    "Xorca.C106_state_address_implied"
   ],
   "note": "About functions of an older commit as quoted in the audit report; the old redeem conversion is not quoted and is taken from the exchange rate given there."
  },
  {
   "property": "C107",
   "status": "proved",
   "theorems": [
    "Xorca.C107_dead_share_stays",
    "Xorca.C107_never_ownerless",
    "Xorca.C107_no_dilution",
    "Xorca.C107_no_coalition_profits"
   ],
   "note": "The world versions rest on the transcription of the SPL token program."
  },
  {
   "property": "C108",
   "status": "proved",
   "theorems": [
    "Xorca.C108_calls_keep_locks",
    "Xorca.C108_transactions_keep_locks",
    "Xorca.C108_parallel_is_sequential",
    "Xorca.C108_any_order",
    "Xorca.C108_calls_conflict"
   ],
   "note": ""
  },
  {
   "property": "C109",
   "status": "proved",
   "theorems": [
    "Xorca.C109_no_authority_no_freezing",
    "Xorca.C109_only_the_freeze_authority",
    "Xorca.C109_xorca_never_frozen",
    "Xorca.C109_vault_never_frozen",
    "Xorca.C109_withdrawal_always_succeeds",
    "Xorca.C109_frozen_vault_stops_stake",
    "Xorca.C109_frozen_vault_stops_withdraw",
    "Xorca.C109_freeze_authority_can_stop_payments"
   ],
   "note": ""
  },
  {
   "property": "C110",
   "status": "proved",
   "theorems": [
    "Xorca.C110_stake_looks_at",
    "Xorca.C110_unstake_looks_at",
    "Xorca.C110_withdraw_looks_at",
    "Xorca.C110_set_looks_at",
    "Xorca.C110_initialize_looks_at",
    "Xorca.C110_stake_needs_all",
    "Xorca.C110_withdraw_needs_all",
    "Xorca.C110_set_needs_all",
    "Xorca.C110_unstake_needs_all",
    "Xorca.C110_initialize_needs_all",
    "Xorca.C110_number_tried"
   ],
   "note": ""
  },
  {
   "property": "C111",
   "status": "proved",
   "theorems": [
    "Xorca.C111_read_as_written",
    "Xorca.C111_writes_do_not_interfere",
    "Xorca.C111_little_growth",
    "Xorca.C111_same_as_on_the_ledger",
    "Xorca.C111_growth_refused"
   ],
   "note": ""
  },
  {
   "property": "C112",
   "status": "proved",
   "theorems": [
    "Xorca.C112_griefing_is_expensive",
    "Xorca.C112_factor_is_sharp"
   ],
   "note": "C112_factor_is_sharp is about the two conversions only."
  },
  {
   "property": "C113",
   "status": "proved",
   "theorems": [
    "Xorca.C113_same_result",
    "Xorca.C113_work_bound",
    "Xorca.C113_work_of_success",
    "Xorca.C113_log_last",
    "Xorca.C113_late_errors"
   ],
   "note": "Not counted: reads of clock and rent, text messages, and the work of the called programs."
  },
  {
   "property": "C114",
   "status": "proved",
   "theorems": [
    "Xorca.C114_by_real_steps",
    "Xorca.C114_possible_figures",
    "Xorca.C114_strongest_invariant",
    "Xorca.C114_every_rate"
   ],
   "note": ""
  },
  {
   "property": "C115",
   "status": "proved",
   "theorems": [
    "Xorca.C115_plans_are_exact"
   ],
   "note": ""
  },
  {
   "property": "C116",
   "status": "proved",
   "theorems": [
    "Xorca.C116_everything_comes_back"
   ],
   "note": ""
  },
  {
   "property": "C117",
   "status": "proved",
   "theorems": [
    "Xorca.C117_unstake_again",
    "Xorca.C117_withdraw_again",
    "Xorca.C117_initialize_again",
    "Xorca.C117_set_period_again",
    "Xorca.C117_hand_over_again",
    "Xorca.C117_keep_again",
    "Xorca.C117_stake_again",
    "Xorca.C117_unstake_twice"
   ],
   "note": ""
  },
  {
   "property": "C118",
   "status": "proved",
   "theorems": [
    "Xorca.C118_stake_in_parts",
    "Xorca.C118_unstake_in_parts"
   ],
   "note": ""
  },
  {
   "property": "C119",
   "status": "proved",
   "theorems": [
    "Xorca.C119_state",
    "Xorca.C119_request",
    "Xorca.C119_nothing_else",
    "Xorca.C119_state_from_figures",
    "Xorca.C119_request_from_figures"
   ],
   "note": ""
  },
  {
   "property": "C120",
   "status": "proved",
   "theorems": [
    "Xorca.C120_settings_need_the_key",
    "Xorca.C120_given_up"
   ],
   "note": ""
  }
 ]
}