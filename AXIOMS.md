# Axioms of the theorems

Output of `#print axioms`, written by `tools/write_axioms.py`.

| property | theorem | axioms |
|---|---|---|
| C01 | `Kafka.Props.C01_bool` | propext, Classical.choice, Quot.sound |
| C01 | `Kafka.Props.C01_int8` | propext, Classical.choice, Quot.sound |
| C01 | `Kafka.Props.C01_int16` | propext, Classical.choice, Quot.sound |
| C01 | `Kafka.Props.C01_int32` | propext, Classical.choice, Quot.sound |
| C01 | `Kafka.Props.C01_int64` | propext, Classical.choice, Quot.sound |
| C02 | `Kafka.Props.C02_exact` | propext, Classical.choice, Quot.sound |
| C02 | `Kafka.Props.C02_string_partial` | propext, Classical.choice, Quot.sound |
| C02 | `Kafka.Props.C02_fails` | propext, Classical.choice, Quot.sound |
| C03 | `Kafka.Props.C03_exact` | propext, Classical.choice, Quot.sound |
| C03 | `Kafka.Props.C03_nullableString_partial` | propext, Classical.choice, Quot.sound |
| C03 | `Kafka.Props.C03_fails` | propext, Classical.choice, Quot.sound |
| C03 | `Kafka.Props.C03_never_nil` | propext, Quot.sound |
| C04 | `Kafka.Props.C04_bytes` | propext, Classical.choice, Quot.sound |
| C05 | `Kafka.Props.C05_int32Array` | propext, Classical.choice, Quot.sound |
| C05 | `Kafka.Props.C05_int64Array` | propext, Classical.choice, Quot.sound |
| C05 | `Kafka.Props.C05_stringArray` | propext, Classical.choice, Quot.sound |
| C06 | `Kafka.Props.C06_varInt` | propext, Classical.choice, Quot.sound |
| C07 | `Kafka.Props.C07_exact` | propext, Classical.choice, Quot.sound |
| C07 | `Kafka.Props.C07_varBytes` | propext, Classical.choice, Quot.sound |
| C07 | `Kafka.Props.C07_varString_partial` | propext, Classical.choice, Quot.sound |
| C07 | `Kafka.Props.C07_fails` | propext, Classical.choice, Quot.sound |
| C08 | `Kafka.Props.C08_bool` | propext, Classical.choice, Quot.sound |
| C08 | `Kafka.Props.C08_int8` | propext, Classical.choice, Quot.sound |
| C08 | `Kafka.Props.C08_int16` | propext, Classical.choice, Quot.sound |
| C08 | `Kafka.Props.C08_int32` | propext, Classical.choice, Quot.sound |
| C08 | `Kafka.Props.C08_int64` | propext, Classical.choice, Quot.sound |
| C08 | `Kafka.Props.C08_string` | propext, Classical.choice, Quot.sound |
| C08 | `Kafka.Props.C08_nullableString` | propext, Classical.choice, Quot.sound |
| C08 | `Kafka.Props.C08_bytes` | propext, Classical.choice, Quot.sound |
| C08 | `Kafka.Props.C08_int32Array` | propext, Classical.choice, Quot.sound |
| C08 | `Kafka.Props.C08_int64Array` | propext, Classical.choice, Quot.sound |
| C08 | `Kafka.Props.C08_stringArray` | propext, Classical.choice, Quot.sound |
| C08 | `Kafka.Props.C08_varInt_partial` | propext, Classical.choice, Quot.sound |
| C08 | `Kafka.Props.C08_varBytes_partial` | propext, Classical.choice, Quot.sound |
| C08 | `Kafka.Props.C08_varString_partial` | propext, Classical.choice, Quot.sound |
| C08 | `Kafka.Props.C08_fails` | propext, Quot.sound |
| C08 | `Kafka.Props.C08_varInt_exact` | propext, Classical.choice, Quot.sound |
| C08 | `Kafka.Props.C08_varInt_stale_exact` | propext, Classical.choice, Quot.sound |
| C09 | `Kafka.Props.C09_fails` | propext, Classical.choice, Quot.sound |
| C09 | `Kafka.Props.C09_never_reported` | propext, Quot.sound |
| C09 | `Kafka.Props.C09_partial` | propext, Classical.choice, Quot.sound |
| C10 | `Kafka.Props.C10_fails` | propext, Quot.sound |
| C10 | `Kafka.Props.C10_partial` | propext, Classical.choice, Quot.sound |
| C10 | `Kafka.Props.C10_string_iff` | propext, Classical.choice, Quot.sound |
| C10 | `Kafka.Props.C10_bytes_iff` | propext, Classical.choice, Quot.sound |
| C10 | `Kafka.Props.C10_int32Array_iff` | propext, Classical.choice, Quot.sound |
| C10 | `Kafka.Props.C10_int64Array_iff` | propext, Classical.choice, Quot.sound |
| C10 | `Kafka.Props.C10_string_panics` | propext, Quot.sound |
| C10 | `Kafka.Props.C10_bytes_panics` | propext, Quot.sound |
| C10 | `Kafka.Props.C10_array_panics` | propext, Quot.sound |
| C10 | `Kafka.Props.C10_varBytes_panics` | propext, Quot.sound |
| C11 | `Kafka.Props.C11_messages` | propext, Classical.choice, Quot.sound |
| C11 | `Kafka.Props.C11_errors` | propext, Classical.choice, Quot.sound |
| C11 | `Kafka.Props.C11_varInt_fails` | propext, Quot.sound |
| C12 | `Kafka.Props.C12_broken_partial` | propext, Classical.choice, Quot.sound |
| C12 | `Kafka.Props.C12_sticky_partial` | propext, Classical.choice, Quot.sound |
| C12 | `Kafka.Props.C12_varBytes_fails` | propext, Quot.sound |
| C12 | `Kafka.Props.C12_varString_fails` | propext, Classical.choice, Quot.sound |
| C13 | `Kafka.Props.C13_size` | propext, Classical.choice, Quot.sound |
| C13 | `Kafka.Props.C13_size_exact` | propext, Classical.choice, Quot.sound |
| C14 | `Kafka.Props.C14_roundtrip` | propext, Classical.choice, Quot.sound |
| C14 | `Kafka.Props.C14_roundtrip_exact` | propext, Classical.choice, Quot.sound |
| C14 | `Kafka.Props.C14_stable` | propext, Classical.choice, Quot.sound |
| C15 | `Kafka.Props.C15_self_delimiting` | propext, Classical.choice, Quot.sound |
| C15 | `Kafka.Props.C15_injective` | propext, Classical.choice, Quot.sound |
| C16 | `Kafka.Props.C16_truncated` | propext, Classical.choice, Quot.sound |
| C17 | `Kafka.Props.C17_absent` | propext, Quot.sound |
| C17 | `Kafka.Props.C17_field` | propext, Quot.sound |
| C17 | `Kafka.Props.C17_present` | propext, Quot.sound |
| C17 | `Kafka.Props.C17_same_bytes` | propext, Classical.choice, Quot.sound |
| C18 | `Kafka.Props.C18_frame` | propext, Classical.choice, Quot.sound |
| C18 | `Kafka.Props.C18_appended` | propext, Classical.choice, Quot.sound |
| C19 | `Kafka.Props.C19_header` | propext, Classical.choice, Quot.sound |
| C19 | `Kafka.Props.C19_response` | propext, Quot.sound |
| C19 | `Kafka.Props.C19_distinct` | propext, Classical.choice, Quot.sound |
| C20 | `Kafka.Props.C20_stream` | propext, Classical.choice, Quot.sound |
| C20 | `Kafka.Props.C20_body` | propext, Classical.choice, Quot.sound |
| C21 | `Kafka.Props.C21_mutual` | propext, Classical.choice, Quot.sound |
| C22 | `Kafka.Props.C22_partial` | propext, Classical.choice, Quot.sound |
| C22 | `Kafka.Props.C22_list_partial` | propext, Classical.choice, Quot.sound |
| C22 | `Kafka.Props.C22_newer_fails` | propext, Classical.choice, Quot.sound |
| C22 | `Kafka.Props.C22_fails` | none |
| C22 | `Kafka.Props.C22_exact` | propext, Classical.choice, Quot.sound |
| C23 | `Kafka.Props.C23_partial` | propext, Classical.choice, Quot.sound |
| C23 | `Kafka.Props.C23_exact` | propext, Classical.choice, Quot.sound |
| C23 | `Kafka.Props.C23_fails` | propext, Classical.choice, Quot.sound |
| C24 | `Kafka.Props.C24_unknown` | propext, Quot.sound |
| C24 | `Kafka.Props.C24_missing` | propext, Classical.choice, Quot.sound |
| C24 | `Kafka.Props.C24_repeated` | propext, Classical.choice, Quot.sound |
| C24 | `Kafka.Props.C24_incompatible` | propext, Classical.choice, Quot.sound |
| C24 | `Kafka.Props.C24_error` | propext, Classical.choice, Quot.sound |
| C25 | `Kafka.Props.C25_cells` | propext, Classical.choice, Quot.sound |
| C25 | `Kafka.Props.C25_fails` | propext, Quot.sound |
| C25 | `Kafka.Props.C25_partial` | propext, Classical.choice, Quot.sound |
| C25 | `Kafka.Props.C25_held_partial` | propext, Classical.choice, Quot.sound |
| C25 | `Kafka.Props.C25_noWait_partial` | propext, Classical.choice, Quot.sound |
| C25 | `Kafka.Props.C25_wake_partial` | propext, Classical.choice, Quot.sound |
| C25 | `Kafka.Props.C25_inTime_partial` | propext, Classical.choice, Quot.sound |
| C25 | `Kafka.Props.C25_exact` | propext, Classical.choice, Quot.sound |
| C26 | `Kafka.Props.C26_queue` | propext, Classical.choice, Quot.sound |
| C26 | `Kafka.Props.C26_full` | propext, Classical.choice, Quot.sound |
| C26 | `Kafka.Props.C26_empty` | propext, Classical.choice, Quot.sound |
| C27 | `Kafka.Props.C27_fails` | propext, Quot.sound |
| C27 | `Kafka.Props.C27_partial` | propext, Classical.choice, Quot.sound |
| C27 | `Kafka.Props.C27_resumes` | propext |
| C27 | `Kafka.Props.C27_exact` | propext, Classical.choice, Quot.sound |
| C28 | `Kafka.Props.C28_fails` | propext, Classical.choice, Quot.sound |
| C28 | `Kafka.Props.C28_partial` | propext, Quot.sound |
| C28 | `Kafka.Props.C28_only` | propext, Classical.choice, Quot.sound |
| C28 | `Kafka.Props.C28_fresh_partial` | propext, Quot.sound |
| C29 | `Kafka.Props.C29_release` | propext, Quot.sound |
| C29 | `Kafka.Props.C29_wait` | propext, Quot.sound |
| C29 | `Kafka.Props.C29_hand` | propext |
| C30 | `Kafka.Props.C30_write` | propext, Quot.sound |
| C30 | `Kafka.Props.C30_read` | propext, Quot.sound |
| C31 | `Kafka.Props.C31_indices` | propext, Classical.choice, Quot.sound |
| C32 | `Kafka.Props.C32_window_partial` | propext, Classical.choice, Quot.sound |
| C32 | `Kafka.Props.C32_oneByOne_partial` | propext, Classical.choice, Quot.sound |
| C32 | `Kafka.Props.C32_reply` | propext, Classical.choice, Quot.sound |
| C32 | `Kafka.Props.C32_ids_partial` | propext, Classical.choice, Quot.sound |
| C32 | `Kafka.Props.C32_ids_fails` | propext, Classical.choice, Quot.sound |
| C32 | `Kafka.Props.C32_ids_false` | propext, Classical.choice, Quot.sound |
| C33 | `Kafka.Props.C33_once` | propext, Classical.choice, Quot.sound |
| C33 | `Kafka.Props.C33_send` | propext, Classical.choice, Quot.sound |
| C33 | `Kafka.Props.C33_unknown` | propext, Quot.sound |
| C34 | `Kafka.Props.C34_apart_partial` | propext, Classical.choice, Quot.sound |
| C34 | `Kafka.Props.C34_apart_found` | propext, Classical.choice, Quot.sound |
| C34 | `Kafka.Props.C34_partial` | propext, Classical.choice, Quot.sound |
| C34 | `Kafka.Props.C34_found` | propext, Classical.choice, Quot.sound |
| C34 | `Kafka.Props.C34_fails` | propext, Classical.choice, Quot.sound |
| C35 | `Kafka.Props.C35_wire` | propext, Classical.choice, Quot.sound |
| C35 | `Kafka.Props.C35_flushed` | propext, Classical.choice, Quot.sound |
| C35 | `Kafka.Props.C35_requests` | propext, Classical.choice, Quot.sound |
| C36 | `Kafka.Props.C36_gone` | propext, Classical.choice, Quot.sound |
| C36 | `Kafka.Props.C36_close_fails` | propext, Classical.choice, Quot.sound |
| C36 | `Kafka.Props.C36_fails` | propext, Classical.choice, Quot.sound |
| C36 | `Kafka.Props.C36_peer_fails` | propext, Classical.choice, Quot.sound |
| C36 | `Kafka.Props.C36_partial` | propext, Classical.choice, Quot.sound |
| C36 | `Kafka.Props.C36_flush_partial` | propext, Quot.sound |
| C36 | `Kafka.Props.C36_fair_partial` | propext, Classical.choice, Quot.sound |
| C36 | `Kafka.Props.C36_fair` | propext, Classical.choice, Quot.sound |
| C37 | `Kafka.Props.C37_cells` | propext, Classical.choice, Quot.sound |
| C37 | `Kafka.Props.C37_partial` | propext, Classical.choice, Quot.sound |
| C37 | `Kafka.Props.C37_short` | propext, Classical.choice, Quot.sound |
| C37 | `Kafka.Props.C37_fails` | propext, Quot.sound |
| C37 | `Kafka.Props.C37_inTime_partial` | propext, Classical.choice, Quot.sound |
| C38 | `Kafka.Props.C38_oversize_fails` | propext, Classical.choice, Quot.sound |
| C38 | `Kafka.Props.C38_fails` | propext, Classical.choice, Quot.sound |
| C38 | `Kafka.Props.C38_partial` | propext, Classical.choice, Quot.sound |
| C38 | `Kafka.Props.C38_received_partial` | propext, Classical.choice, Quot.sound |
| C38 | `Kafka.Props.C38_stream_fails` | propext, Classical.choice, Quot.sound |
| C38 | `Kafka.Props.C38_inTime_partial` | propext, Classical.choice, Quot.sound |
| C39 | `Kafka.Props.C39_first` | propext, Classical.choice, Quot.sound |
| C39 | `Kafka.Props.C39_all` | propext, Classical.choice, Quot.sound |
| C39 | `Kafka.Props.C39_metadata` | propext, Classical.choice, Quot.sound |
| C39 | `Kafka.Props.C39_metadata_none` | propext, Classical.choice, Quot.sound |
| C39 | `Kafka.Props.C39_lookups_none` | propext, Classical.choice, Quot.sound |
| C39 | `Kafka.Props.C39_coordinator` | propext, Classical.choice, Quot.sound |
| C39 | `Kafka.Props.C39_cases` | propext, Classical.choice, Quot.sound |
| C39 | `Kafka.Props.C39_failover` | propext, Classical.choice, Quot.sound |
| C39 | `Kafka.Props.C39_empty` | propext, Classical.choice, Quot.sound |
| C39 | `Kafka.Props.C39_fails` | propext, Classical.choice, Quot.sound |
| C39 | `Kafka.Props.C39_empty_coordinator` | propext, Classical.choice, Quot.sound |
| C39 | `Kafka.Props.C39_partial` | propext, Classical.choice, Quot.sound |
| C40 | `Kafka.Props.C40_leader` | propext, Classical.choice, Quot.sound |
| C40 | `Kafka.Props.C40_leader_none` | propext, Classical.choice, Quot.sound |
| C40 | `Kafka.Props.C40_leader_found` | propext, Classical.choice, Quot.sound |
| C40 | `Kafka.Props.C40_controller` | propext, Classical.choice, Quot.sound |
| C40 | `Kafka.Props.C40_no_metadata` | propext, Classical.choice, Quot.sound |
| C40 | `Kafka.Props.C40_sent` | propext, Quot.sound |
| C40 | `Kafka.Props.C40_answer` | propext, Classical.choice, Quot.sound |
| C40 | `Kafka.Props.C40_controller_fails` | propext, Classical.choice, Quot.sound |
| C40 | `Kafka.Props.C40_coordinator_partial` | propext, Classical.choice, Quot.sound |
| C40 | `Kafka.Props.C40_coordinator_fails` | propext, Classical.choice, Quot.sound |
| C40 | `Kafka.Props.C40_address` | propext, Classical.choice, Quot.sound |
| C40 | `Kafka.Props.C40_address_inj` | propext, Classical.choice, Quot.sound |
| C41 | `Kafka.Props.C41_config` | propext, Classical.choice, Quot.sound |
| C41 | `Kafka.Props.C41_order` | propext, Classical.choice, Quot.sound |
| C41 | `Kafka.Props.C41_effect` | propext, Classical.choice, Quot.sound |
| C42 | `Kafka.Props.C42_partial` | propext, Classical.choice, Quot.sound |
| C42 | `Kafka.Props.C42_excess` | propext, Classical.choice, Quot.sound |
| C42 | `Kafka.Props.C42_fails` | propext, Classical.choice, Quot.sound |
| C43 | `Kafka.Props.C43_layout` | propext, Classical.choice, Quot.sound |
| C43 | `Kafka.Props.C43_panics` | propext, Quot.sound |
| C43 | `Kafka.Props.C43_partial` | propext, Classical.choice, Quot.sound |
| C43 | `Kafka.Props.C43_fails` | propext, Quot.sound |
| C43 | `Kafka.Props.C43_ambiguous` | propext, Quot.sound |
| C43 | `Kafka.Props.C43_unreadable` | propext, Quot.sound |
| C44 | `Kafka.Props.C44_range` | propext, Quot.sound |
| C44 | `Kafka.Props.C44_get` | propext, Quot.sound |
| C45 | `Kafka.Props.C45_never` | propext, Classical.choice, Quot.sound |
| C45 | `Kafka.Props.C45_metadata` | propext, Classical.choice, Quot.sound |
| C45 | `Kafka.Props.C45_fails` | propext, Classical.choice, Quot.sound |
| C45 | `Kafka.Props.C45_partial` | propext, Classical.choice, Quot.sound |
| C46 | `Kafka.Props.C46_ignored` | propext, Classical.choice, Quot.sound |
| C46 | `Kafka.Props.C46_fails` | propext, Classical.choice, Quot.sound |
| C46 | `Kafka.Props.C46_partial` | propext, Classical.choice, Quot.sound |
| C47 | `Kafka.Props.C47_meaning_partial` | propext, Classical.choice, Quot.sound |
| C47 | `Kafka.Props.C47_flexible_never` | propext, Classical.choice, Quot.sound |
| C47 | `Kafka.Props.C47_exact` | propext, Classical.choice, Quot.sound |
| C47 | `Kafka.Props.C47_partial` | propext, Classical.choice, Quot.sound |
| C47 | `Kafka.Props.C47_flexible_fails` | propext, Classical.choice, Quot.sound |
| C47 | `Kafka.Props.C47_commit_fails` | propext, Classical.choice, Quot.sound |
| C47 | `Kafka.Props.C47_shutdown_fails` | propext, Classical.choice, Quot.sound |
| C47 | `Kafka.Props.C47_nil_fails` | propext, Classical.choice, Quot.sound |
| C47 | `Kafka.Props.C47_fails` | propext, Classical.choice, Quot.sound |
| C48 | `Kafka.Props.C48_null_panics` | propext, Classical.choice, Quot.sound |
| C48 | `Kafka.Props.C48_exact` | propext, Classical.choice, Quot.sound |
| C48 | `Kafka.Props.C48_partial` | propext, Classical.choice, Quot.sound |
| C48 | `Kafka.Props.C48_null_fails` | propext, Classical.choice, Quot.sound |
| C48 | `Kafka.Props.C48_flexible_fails` | propext, Classical.choice, Quot.sound |
| C49 | `Kafka.Props.C49_partial` | propext, Classical.choice, Quot.sound |
| C49 | `Kafka.Props.C49_fails` | propext, Classical.choice, Quot.sound |
| C49 | `Kafka.Props.C49_inTime_partial` | propext, Classical.choice, Quot.sound |
| C50 | `Kafka.Props.C50_partial` | propext, Classical.choice, Quot.sound |
| C50 | `Kafka.Props.C50_fails` | propext, Classical.choice, Quot.sound |
| C50 | `Kafka.Props.C50_exact` | propext, Classical.choice, Quot.sound |
| C50 | `Kafka.Props.C50_short` | propext, Classical.choice, Quot.sound |
| C51 | `Kafka.Props.C51_fair` | propext, Classical.choice, Quot.sound |
| C51 | `Kafka.Props.C51_fair_partial` | propext, Classical.choice, Quot.sound |
| C51 | `Kafka.Props.C51_fair_woken_partial` | propext, Classical.choice, Quot.sound |
| C51 | `Kafka.Props.C51_received` | propext, Classical.choice, Quot.sound |
| C51 | `Kafka.Props.C51_received_partial` | propext, Classical.choice, Quot.sound |
| C51 | `Kafka.Props.C51_prompt_partial` | propext, Classical.choice, Quot.sound |
| C51 | `Kafka.Props.C51_partial` | propext, Classical.choice, Quot.sound |
| C51 | `Kafka.Props.C51_fails` | propext, Classical.choice, Quot.sound |
| C51 | `Kafka.Props.C51_idle` | propext, Classical.choice, Quot.sound |
| C51 | `Kafka.Props.C51_fair_fails` | propext, Classical.choice, Quot.sound |
| C51 | `Kafka.Props.C51_deadlock_fails` | propext, Classical.choice, Quot.sound |
| C52 | `Kafka.Props.C52_partial` | propext, Classical.choice, Quot.sound |
| C52 | `Kafka.Props.C52_running` | propext, Classical.choice, Quot.sound |
| C52 | `Kafka.Props.C52_reply_fails` | propext, Classical.choice, Quot.sound |
| C52 | `Kafka.Props.C52_fails` | propext, Quot.sound |
| C52 | `Kafka.Props.C52_exact` | propext, Classical.choice, Quot.sound |
| C53 | `Kafka.Props.C53_ended` | propext, Classical.choice, Quot.sound |
| C53 | `Kafka.Props.C53_returns` | propext, Classical.choice, Quot.sound |
| C53 | `Kafka.Props.C53_bounded` | propext, Classical.choice, Quot.sound |
| C53 | `Kafka.Props.C53_fair` | propext, Classical.choice, Quot.sound |
| C54 | `Kafka.Props.C54_partial` | propext, Classical.choice, Quot.sound |
| C54 | `Kafka.Props.C54_fails` | propext, Classical.choice, Quot.sound |
| C54 | `Kafka.Props.C54_inTime_partial` | propext, Classical.choice, Quot.sound |
| C55 | `Kafka.Props.C55_partial` | propext, Classical.choice, Quot.sound |
| C55 | `Kafka.Props.C55_fails` | propext, Classical.choice, Quot.sound |
| C55 | `Kafka.Props.C55_exact` | propext, Classical.choice, Quot.sound |
| C55 | `Kafka.Props.C55_leftover_partial` | propext, Classical.choice, Quot.sound |
| C56 | `Kafka.Props.C56_only` | propext, Classical.choice, Quot.sound |
| C56 | `Kafka.Props.C56_partial` | propext, Classical.choice, Quot.sound |
| C56 | `Kafka.Props.C56_ring_fails` | propext, Classical.choice, Quot.sound |
| C56 | `Kafka.Props.C56_reply_fails` | propext, Classical.choice, Quot.sound |
| C57 | `Kafka.Props.C57_sticky` | propext, Classical.choice, Quot.sound |
| C58 | `Kafka.Props.C58_partial` | propext, Classical.choice, Quot.sound |
| C58 | `Kafka.Props.C58_grows` | propext, Classical.choice, Quot.sound |
| C58 | `Kafka.Props.C58_fails` | propext, Classical.choice, Quot.sound |
| C58 | `Kafka.Props.C58_exact` | propext, Classical.choice, Quot.sound |
| C58 | `Kafka.Props.C58_leaks` | propext, Classical.choice, Quot.sound |
| C59 | `Kafka.Props.C59_methods` | propext, Classical.choice, Quot.sound |
| C59 | `Kafka.Props.C59_send` | propext, Quot.sound |
| C59 | `Kafka.Props.C59_broken` | propext, Quot.sound |
| C59 | `Kafka.Props.C59_machine` | propext, Quot.sound |
| C60 | `Kafka.Props.C60_outcome` | propext, Classical.choice, Quot.sound |
| C60 | `Kafka.Props.C60_returns` | propext, Classical.choice, Quot.sound |
| C60 | `Kafka.Props.C60_fails` | propext, Classical.choice, Quot.sound |
| C60 | `Kafka.Props.C60_panics` | propext, Classical.choice, Quot.sound |
| C60 | `Kafka.Props.C60_crash_bytes` | propext, Classical.choice, Quot.sound |
| C60 | `Kafka.Props.C60_immune` | propext, Classical.choice, Quot.sound |
| C60 | `Kafka.Props.C60_immune_list` | propext, Classical.choice, Quot.sound |
| C60 | `Kafka.Props.C60_all` | propext, Classical.choice, Quot.sound |
| C60 | `Kafka.Props.C60_immune_all` | propext, Classical.choice, Quot.sound |
| C61 | `Kafka.Props.C61_proceeds` | propext, Classical.choice, Quot.sound |
| C61 | `Kafka.Props.C61_registers` | propext, Classical.choice, Quot.sound |
| C61 | `Kafka.Props.C61_takes` | propext, Classical.choice, Quot.sound |
| C61 | `Kafka.Props.C61_stalls` | propext, Classical.choice, Quot.sound |
| C62 | `Kafka.Props.C62_partial` | propext, Classical.choice, Quot.sound |
| C62 | `Kafka.Props.C62_newer_fails` | propext, Classical.choice, Quot.sound |
| C62 | `Kafka.Props.C62_flexible_fails` | propext, Classical.choice, Quot.sound |
| C62 | `Kafka.Props.C62_absent_fails` | propext, Classical.choice, Quot.sound |
| C62 | `Kafka.Props.C62_kafka24` | propext, Classical.choice, Quot.sound |
| C62 | `Kafka.Props.C62_fails` | propext, Classical.choice, Quot.sound |
| C63 | `Kafka.Props.C63_exact` | propext, Classical.choice, Quot.sound |
| C63 | `Kafka.Props.C63_colon_fails` | propext, Classical.choice, Quot.sound |
| C63 | `Kafka.Props.C63_fails` | propext, Classical.choice, Quot.sound |
| C63 | `Kafka.Props.C63_partial` | propext, Classical.choice, Quot.sound |
| C64 | `Kafka.Props.C64_counts` | propext, Quot.sound |
| C64 | `Kafka.Props.C64_partial` | propext, Classical.choice, Quot.sound |
| C64 | `Kafka.Props.C64_bound` | propext, Classical.choice, Quot.sound |
| C64 | `Kafka.Props.C64_array_fails` | propext, Classical.choice, Quot.sound |
| C64 | `Kafka.Props.C64_scalars` | propext, Classical.choice, Quot.sound |
| C64 | `Kafka.Props.C64_exact` | propext, Classical.choice, Quot.sound |
| C64 | `Kafka.Props.C64_fails` | propext, Classical.choice, Quot.sound |
| C64 | `Kafka.Props.C64_methods` | propext, Classical.choice, Quot.sound |
| C65 | `Kafka.Props.C65_returns` | propext, Classical.choice, Quot.sound |
| C65 | `Kafka.Props.C65_partial` | propext, Classical.choice, Quot.sound |
| C65 | `Kafka.Props.C65_read` | propext, Classical.choice, Quot.sound |
| C65 | `Kafka.Props.C65_fails` | propext, Classical.choice, Quot.sound |
| C65 | `Kafka.Props.C65_whole_partial` | propext, Classical.choice, Quot.sound |
| C65 | `Kafka.Props.C65_race_fails` | propext, Classical.choice, Quot.sound |
| C66 | `Kafka.Props.C66_partial` | propext, Classical.choice, Quot.sound |
| C66 | `Kafka.Props.C66_fails` | propext, Classical.choice, Quot.sound |
| C67 | `Kafka.Props.C67_partial` | propext, Classical.choice, Quot.sound |
| C67 | `Kafka.Props.C67_ipv6_fails` | propext, Classical.choice, Quot.sound |
| C67 | `Kafka.Props.C67_fails` | propext, Classical.choice, Quot.sound |
| C68 | `Kafka.Props.C68_partial` | propext, Classical.choice, Quot.sound |
| C68 | `Kafka.Props.C68_answered` | propext, Classical.choice, Quot.sound |
| C68 | `Kafka.Props.C68_silent` | propext, Classical.choice, Quot.sound |
| C68 | `Kafka.Props.C68_fails` | propext, Classical.choice, Quot.sound |
| C69 | `Kafka.Props.C69_metadata` | propext, Classical.choice, Quot.sound |
| C69 | `Kafka.Props.C69_bounded` | propext, Classical.choice, Quot.sound |
| C69 | `Kafka.Props.C69_apis` | propext, Classical.choice, Quot.sound |
| C70 | `Kafka.Props.C70_ids` | propext, Classical.choice, Quot.sound |
| C70 | `Kafka.Props.C70_wire` | propext, Classical.choice, Quot.sound |
| C70 | `Kafka.Props.C70_asked` | propext, Classical.choice, Quot.sound |
| C70 | `Kafka.Props.C70_model` | propext, Classical.choice, Quot.sound |
| C70 | `Kafka.Props.C70_panics` | propext, Classical.choice, Quot.sound |
| C70 | `Kafka.Props.C70_answered` | propext, Classical.choice, Quot.sound |
| C70 | `Kafka.Props.C70_realised` | propext, Classical.choice, Quot.sound |
| C71 | `Kafka.Props.C71_asks` | propext, Classical.choice, Quot.sound |
| C71 | `Kafka.Props.C71_partial` | propext, Classical.choice, Quot.sound |
| C71 | `Kafka.Props.C71_creates` | propext, Classical.choice, Quot.sound |
| C71 | `Kafka.Props.C71_all` | propext, Classical.choice, Quot.sound |
| C71 | `Kafka.Props.C71_fails_create` | propext, Classical.choice, Quot.sound |
| C71 | `Kafka.Props.C71_fails_all` | propext, Classical.choice, Quot.sound |
| C71 | `Kafka.Props.C71_flexible` | propext, Classical.choice, Quot.sound |
| C72 | `Kafka.Props.C72_record_partial` | propext, Classical.choice, Quot.sound |
| C72 | `Kafka.Props.C72_fails` | propext, Classical.choice, Quot.sound |
| C72 | `Kafka.Props.C72_partial` | propext, Classical.choice, Quot.sound |
| C72 | `Kafka.Props.C72_rejected` | propext, Classical.choice, Quot.sound |
| C73 | `Kafka.Props.C73_varInt` | propext, Classical.choice, Quot.sound |
| C73 | `Kafka.Props.C73_varBytes` | propext, Classical.choice, Quot.sound |
| C73 | `Kafka.Props.C73_varString` | propext, Classical.choice, Quot.sound |
| C73 | `Kafka.Props.C73_varInt_exact` | propext, Classical.choice, Quot.sound |
| C73 | `Kafka.Props.C73_varBytes_exact` | propext, Classical.choice, Quot.sound |
| C73 | `Kafka.Props.C73_varString_exact` | propext, Classical.choice, Quot.sound |
| C73 | `Kafka.Props.C73_partial` | propext, Classical.choice, Quot.sound |
| C73 | `Kafka.Props.C73_fails` | propext, Classical.choice, Quot.sound |
| C73 | `Kafka.Props.C73_varBytes_fails` | propext, Quot.sound |
| C73 | `Kafka.Props.C73_varString_fails` | propext, Classical.choice, Quot.sound |
| C74 | `Kafka.Props.C74_discard` | propext, Quot.sound |
| C74 | `Kafka.Props.C74_partial` | propext, Quot.sound |
| C74 | `Kafka.Props.C74_negative` | propext, Quot.sound |
| C74 | `Kafka.Props.C74_fails` | propext, Quot.sound |
| C74 | `Kafka.Props.C74_reset` | none |
| C74 | `Kafka.Props.C74_reset_rest` | propext |
| C75 | `Kafka.Props.C75_never` | none |
| C75 | `Kafka.Props.C75_fails` | propext |
| C76 | `Kafka.Props.C76_one` | propext |
| C76 | `Kafka.Props.C76_is` | propext |
| C76 | `Kafka.Props.C76_text` | propext, Classical.choice, Quot.sound |
| C76 | `Kafka.Props.C76_newBroker` | propext, Classical.choice, Quot.sound |
| C76 | `Kafka.Props.C76_operation` | propext, Classical.choice, Quot.sound |
| C76 | `Kafka.Props.C76_method` | propext |
| C76 | `Kafka.Props.C76_insufficient` | propext |
| C77 | `Kafka.Props.C77_partial` | propext, Classical.choice, Quot.sound |
| C77 | `Kafka.Props.C77_receives_partial` | propext, Classical.choice, Quot.sound |
| C77 | `Kafka.Props.C77_fails` | propext, Classical.choice, Quot.sound |
| C77 | `Kafka.Props.C77_actual` | propext, Classical.choice, Quot.sound |
| C77 | `Kafka.Props.C77_open_fails` | propext, Classical.choice, Quot.sound |
| C78 | `Kafka.Props.C78_outcome` | propext, Classical.choice, Quot.sound |
| C78 | `Kafka.Props.C78_value` | propext, Classical.choice, Quot.sound |
| C78 | `Kafka.Props.C78_all` | propext, Quot.sound |
| C78 | `Kafka.Props.C78_exact` | propext, Classical.choice, Quot.sound |
| C78 | `Kafka.Props.C78_partial` | propext, Classical.choice, Quot.sound |
| C78 | `Kafka.Props.C78_own` | propext, Classical.choice, Quot.sound |
| C78 | `Kafka.Props.C78_fails` | propext, Classical.choice, Quot.sound |
| C79 | `Kafka.Props.C79_exact` | propext, Classical.choice, Quot.sound |
| C79 | `Kafka.Props.C79_partial` | propext, Classical.choice, Quot.sound |
| C79 | `Kafka.Props.C79_closed` | propext, Classical.choice, Quot.sound |
| C79 | `Kafka.Props.C79_close_fails` | propext, Classical.choice, Quot.sound |
| C79 | `Kafka.Props.C79_fails` | propext, Classical.choice, Quot.sound |
| C80 | `Kafka.Props.C80_partial` | propext, Classical.choice, Quot.sound |
| C80 | `Kafka.Props.C80_never` | propext, Classical.choice, Quot.sound |
| C80 | `Kafka.Props.C80_fails` | propext, Classical.choice, Quot.sound |
| C80 | `Kafka.Props.C80_unread` | propext, Classical.choice, Quot.sound |
| C80 | `Kafka.Props.C80_never_inTime` | propext, Classical.choice, Quot.sound |
| C81 | `Kafka.Props.C81_leader_blind` | propext, Classical.choice, Quot.sound |
| C81 | `Kafka.Props.C81_coordinator_blind` | propext, Classical.choice, Quot.sound |
| C81 | `Kafka.Props.C81_leader_fails` | propext, Classical.choice, Quot.sound |
| C81 | `Kafka.Props.C81_coordinator_fails` | propext, Classical.choice, Quot.sound |
| C81 | `Kafka.Props.C81_leader_partial` | propext, Classical.choice, Quot.sound |
| C82 | `Kafka.Props.C82_partial` | propext, Classical.choice, Quot.sound |
| C82 | `Kafka.Props.C82_begun_partial` | propext, Classical.choice, Quot.sound |
| C82 | `Kafka.Props.C82_fails` | propext, Classical.choice, Quot.sound |
| C83 | `Kafka.Props.C83_only` | propext, Quot.sound |
| C83 | `Kafka.Props.C83_leaks` | propext, Classical.choice, Quot.sound |
| C83 | `Kafka.Props.C83_partial` | propext, Classical.choice, Quot.sound |
| C83 | `Kafka.Props.C83_fails` | propext, Classical.choice, Quot.sound |
| C83 | `Kafka.Props.C83_leaks_always` | propext, Classical.choice, Quot.sound |
| C84 | `Kafka.Props.C84_model` | propext, Quot.sound |
| C84 | `Kafka.Props.C84_noPanic` | propext, Quot.sound |
| C84 | `Kafka.Props.C84_zero` | propext, Quot.sound |
| C84 | `Kafka.Props.C84_panics` | propext, Classical.choice, Quot.sound |
| C84 | `Kafka.Props.C84_less` | propext, Classical.choice, Quot.sound |
| C84 | `Kafka.Props.C84_exact` | propext, Classical.choice, Quot.sound |
| C84 | `Kafka.Props.C84_partial` | propext, Classical.choice, Quot.sound |
| C84 | `Kafka.Props.C84_fails` | propext, Classical.choice, Quot.sound |
| C84 | `Kafka.Props.C84_large_fails` | propext, Classical.choice, Quot.sound |
| C85 | `Kafka.Props.C85_partial` | propext, Classical.choice, Quot.sound |
| C85 | `Kafka.Props.C85_plain_partial` | propext, Classical.choice, Quot.sound |
| C85 | `Kafka.Props.C85_encodeDo` | propext, Classical.choice, Quot.sound |
| C85 | `Kafka.Props.C85_encode` | propext, Classical.choice, Quot.sound |
| C85 | `Kafka.Props.C85_decodeDo` | propext, Classical.choice, Quot.sound |
| C85 | `Kafka.Props.C85_decode` | propext, Classical.choice, Quot.sound |
| C85 | `Kafka.Props.C85_decodeClose` | propext, Classical.choice, Quot.sound |
| C85 | `Kafka.Props.C85_encode_fails` | propext, Classical.choice, Quot.sound |
| C85 | `Kafka.Props.C85_decodeDo_example` | propext, Classical.choice, Quot.sound |
| C85 | `Kafka.Props.C85_decodeClose_example` | propext, Classical.choice, Quot.sound |
| C85 | `Kafka.Props.C85_decode_fails` | propext, Classical.choice, Quot.sound |
| C85 | `Kafka.Props.C85_example` | propext, Classical.choice, Quot.sound |
| C86 | `Kafka.Props.C86_quiet` | propext, Classical.choice, Quot.sound |
| C86 | `Kafka.Props.C86_steps` | propext, Classical.choice, Quot.sound |
| C86 | `Kafka.Props.C86_partial` | propext, Classical.choice, Quot.sound |
| C86 | `Kafka.Props.C86_rounds` | propext, Classical.choice, Quot.sound |
| C86 | `Kafka.Props.C86_rest` | propext, Classical.choice, Quot.sound |
| C86 | `Kafka.Props.C86_unbounded` | propext, Classical.choice, Quot.sound |
| C86 | `Kafka.Props.C86_fails` | propext, Classical.choice, Quot.sound |
| C87 | `Kafka.Props.C87_all` | propext, Quot.sound |
| C87 | `Kafka.Props.C87_counts` | propext, Quot.sound |
| C87 | `Kafka.Props.C87_steps` | propext, Classical.choice, Quot.sound |
| C87 | `Kafka.Props.C87_ok` | propext, Classical.choice, Quot.sound |
| C87 | `Kafka.Props.C87_reply_counts` | propext, Quot.sound |
| C87 | `Kafka.Props.C87_reply` | propext, Classical.choice, Quot.sound |
| C87 | `Kafka.Props.C87_bomb` | propext, Classical.choice, Quot.sound |
| C87 | `Kafka.Props.C87_tight` | propext, Quot.sound |
| C88 | `Kafka.Props.C88_writes` | propext, Classical.choice, Quot.sound |
| C88 | `Kafka.Props.C88_one` | propext, Classical.choice, Quot.sound |
| C88 | `Kafka.Props.C88_none` | propext, Classical.choice, Quot.sound |
| C88 | `Kafka.Props.C88_total` | propext, Classical.choice, Quot.sound |
| C88 | `Kafka.Props.C88_request` | propext, Classical.choice, Quot.sound |
| C89 | `Kafka.Props.C89_part_partial` | propext, Classical.choice, Quot.sound |
| C89 | `Kafka.Props.C89_part_messages` | propext, Classical.choice, Quot.sound |
| C89 | `Kafka.Props.C89_part_deleted` | propext, Classical.choice, Quot.sound |
| C89 | `Kafka.Props.C89_exact` | propext, Classical.choice, Quot.sound |
| C89 | `Kafka.Props.C89_same` | propext, Classical.choice, Quot.sound |
| C89 | `Kafka.Props.C89_whole` | propext, Classical.choice, Quot.sound |
| C89 | `Kafka.Props.C89_unanswered` | propext, Quot.sound |
| C89 | `Kafka.Props.C89_cut_partial` | propext, Classical.choice, Quot.sound |
| C89 | `Kafka.Props.C89_messages` | propext, Classical.choice, Quot.sound |
| C89 | `Kafka.Props.C89_all` | propext, Classical.choice, Quot.sound |
| C89 | `Kafka.Props.C89_cut_whole` | propext, Classical.choice, Quot.sound |
| C89 | `Kafka.Props.C89_items` | propext, Classical.choice, Quot.sound |
| C89 | `Kafka.Props.C89_fails` | propext, Quot.sound |
| C89 | `Kafka.Props.C89_deleted` | propext, Classical.choice, Quot.sound |
| C89 | `Kafka.Props.C89_heartbeat` | propext, Classical.choice, Quot.sound |
| C90 | `Kafka.Props.C90_more` | propext, Classical.choice, Quot.sound |
| C90 | `Kafka.Props.C90_panic` | propext, Classical.choice, Quot.sound |
| C90 | `Kafka.Props.C90_fewer` | propext, Classical.choice, Quot.sound |
| C90 | `Kafka.Props.C90_error` | propext, Classical.choice, Quot.sound |
| C90 | `Kafka.Props.C90_method` | propext, Classical.choice, Quot.sound |
| C91 | `Kafka.Props.C91_missing` | propext, Classical.choice, Quot.sound |
| C91 | `Kafka.Props.C91_zeros` | propext, Classical.choice, Quot.sound |
| C91 | `Kafka.Props.C91_response_partial` | propext, Classical.choice, Quot.sound |
| C91 | `Kafka.Props.C91_immune` | propext, Classical.choice, Quot.sound |
| C91 | `Kafka.Props.C91_fails` | propext, Classical.choice, Quot.sound |
| C91 | `Kafka.Props.C91_exact` | propext, Classical.choice, Quot.sound |
| C91 | `Kafka.Props.C91_list` | propext, Classical.choice, Quot.sound |
| C92 | `Kafka.Props.C92_partial` | propext, Classical.choice, Quot.sound |
| C92 | `Kafka.Props.C92_other` | propext, Classical.choice, Quot.sound |
| C92 | `Kafka.Props.C92_coordinator` | propext, Classical.choice, Quot.sound |
| C92 | `Kafka.Props.C92_delete` | propext, Classical.choice, Quot.sound |
| C92 | `Kafka.Props.C92_create` | propext, Classical.choice, Quot.sound |
| C92 | `Kafka.Props.C92_fails` | propext, Classical.choice, Quot.sound |
| C93 | `Kafka.Props.C93_partial` | propext, Classical.choice, Quot.sound |
| C93 | `Kafka.Props.C93_size` | propext, Classical.choice, Quot.sound |
| C93 | `Kafka.Props.C93_exact` | propext, Classical.choice, Quot.sound |
| C93 | `Kafka.Props.C93_again` | propext, Classical.choice, Quot.sound |
| C93 | `Kafka.Props.C93_settled` | propext, Classical.choice, Quot.sound |
| C93 | `Kafka.Props.C93_same` | propext, Classical.choice, Quot.sound |
| C93 | `Kafka.Props.C93_fails` | propext, Quot.sound |
| C93 | `Kafka.Props.C93_fails_null` | propext, Quot.sound |
| C93 | `Kafka.Props.C93_same_fails` | propext, Quot.sound |
| C93 | `Kafka.Props.C93_reply` | propext, Classical.choice, Quot.sound |
| C93 | `Kafka.Props.C93_request` | propext, Classical.choice, Quot.sound |
| C94 | `Kafka.Props.C94_partial` | propext, Classical.choice, Quot.sound |
| C94 | `Kafka.Props.C94_returned` | propext, Classical.choice, Quot.sound |
| C94 | `Kafka.Props.C94_flexible_fails` | propext, Classical.choice, Quot.sound |
| C94 | `Kafka.Props.C94_nil_fails` | propext, Classical.choice, Quot.sound |
| C94 | `Kafka.Props.C94_fails` | propext, Classical.choice, Quot.sound |
| C94 | `Kafka.Props.C94_flexible_never` | propext, Classical.choice, Quot.sound |
| C94 | `Kafka.Props.C94_exact` | propext, Classical.choice, Quot.sound |
| C95 | `Kafka.Props.C95_null_panics` | propext, Classical.choice, Quot.sound |
| C95 | `Kafka.Props.C95_exact` | propext, Classical.choice, Quot.sound |
| C95 | `Kafka.Props.C95_partial` | propext, Classical.choice, Quot.sound |
| C95 | `Kafka.Props.C95_cut` | propext, Classical.choice, Quot.sound |
| C95 | `Kafka.Props.C95_flexible_fails` | propext, Classical.choice, Quot.sound |
| C95 | `Kafka.Props.C95_commit_fails` | propext, Classical.choice, Quot.sound |
| C95 | `Kafka.Props.C95_null_fails` | propext, Classical.choice, Quot.sound |
| C95 | `Kafka.Props.C95_fails` | propext, Classical.choice, Quot.sound |
| C96 | `Kafka.Props.C96_partial` | propext, Classical.choice, Quot.sound |
| C96 | `Kafka.Props.C96_returns` | propext, Classical.choice, Quot.sound |
| C96 | `Kafka.Props.C96_short` | propext, Classical.choice, Quot.sound |
| C96 | `Kafka.Props.C96_panics` | propext, Classical.choice, Quot.sound |
| C96 | `Kafka.Props.C96_crash_bytes` | propext, Classical.choice, Quot.sound |
| C96 | `Kafka.Props.C96_immune` | propext, Classical.choice, Quot.sound |
| C96 | `Kafka.Props.C96_body_immune` | propext, Classical.choice, Quot.sound |
| C96 | `Kafka.Props.C96_body_immune_list` | propext, Classical.choice, Quot.sound |
| C96 | `Kafka.Props.C96_commit_fails` | propext, Quot.sound |
| C96 | `Kafka.Props.C96_fails` | propext, Quot.sound |
| C96 | `Kafka.Props.C96_all` | propext, Classical.choice, Quot.sound |
| C96 | `Kafka.Props.C96_flexible` | propext, Classical.choice, Quot.sound |
| C96 | `Kafka.Props.C96_immune_all` | propext, Classical.choice, Quot.sound |
