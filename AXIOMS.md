# Axioms per theorem

Made with `#print axioms` for every theorem in `MANIFEST.json`.

| theorem | axioms |
|---|---|
| `C01_decides` | Classical.choice, Quot.sound, propext |
| `C01_accept_iff` | Classical.choice, Quot.sound, propext |
| `C01_reject` | Classical.choice, Quot.sound, propext |
| `C02_lossless` | Quot.sound, propext |
| `C02_fields` | Quot.sound, propext |
| `C02_first_bytes` | Classical.choice, Quot.sound, propext |
| `C02_write` | Quot.sound, propext |
| `C02_write_type` | Quot.sound, propext |
| `C02_independent` | Quot.sound, propext |
| `C03_extensions` | Quot.sound, propext |
| `C03_payload` | Quot.sound, propext |
| `C03_accepted` | Classical.choice, Quot.sound, propext |
| `C04_set_sack_partial` | Classical.choice, Quot.sound, propext |
| `C04_header_kept` | Quot.sound, propext |
| `C04_panics_iff` | Classical.choice, Quot.sound, propext |
| `C04_counterexample` | Classical.choice, Quot.sound, propext |
| `C04_too_long` | Quot.sound, propext |
| `C05_next` | Quot.sound, propext |
| `C05_fused` | Quot.sound, propext |
| `C05_items` | Quot.sound, propext |
| `C05_count_ones` | Quot.sound, propext |
| `C05_len_partial` | Quot.sound, propext |
| `C05_len_counterexample` | Quot.sound, propext |
| `C06_packet_type` | Quot.sound, propext |
| `C06_extension_type` | Quot.sound, propext |
| `C07_now` | propext |
| `C07_sub` | Quot.sound, propext |
| `C07_abs` | Quot.sound, propext |
| `C07_readback` | Quot.sound, propext |
| `C08_draw` | Quot.sound, propext |
| `C08_drawn` | Quot.sound, propext |
| `C08_handshake` | Classical.choice, Quot.sound, propext |
| `C08_no_overflow` | Classical.choice, Quot.sound, propext |
| `C54_kinds` | none |
| `C10_changes` | Classical.choice, Quot.sound, propext |
| `C11_step` | Classical.choice, Quot.sound, propext |
| `C11_range` | Classical.choice, Quot.sound, propext |
| `C12_changes` | Classical.choice, Quot.sound, propext |
| `C12_bound` | Classical.choice, Quot.sound, propext |
| `C12_no_panic` | Quot.sound, propext |
| `C12_min` | Quot.sound, propext |
| `C14_framing` | Classical.choice, Quot.sound, propext |
| `C14_result` | Quot.sound, propext |
| `C14_numbering` | Classical.choice, Quot.sound, propext |
| `C14_unique` | Quot.sound, propext |
| `C15_content` | Classical.choice, Quot.sound, propext |
| `C16_cumulative` | Classical.choice, Quot.sound, propext |
| `C16_other` | Quot.sound, propext |
| `C16_changes` | Classical.choice, Quot.sound, propext |
| `C16_consecutive` | Classical.choice, Quot.sound, propext |
| `C17_no_underflow` | Quot.sound, propext |
| `C17_exact` | Classical.choice, Quot.sound, propext |
| `C17_always` | Classical.choice, Quot.sound, propext |
| `C17_zero` | Classical.choice, Quot.sound, propext |
| `C21_flush` | Classical.choice, Quot.sound, propext |
| `C09_changes_partial` | Classical.choice, Quot.sound, propext |
| `C09_floor` | Classical.choice, Quot.sound, propext |
| `C09_counterexample` | Quot.sound, propext |
| `C45_ops_partial` | Classical.choice, Quot.sound, propext |
| `C45_connect` | Classical.choice, Quot.sound, propext |
| `C45_accept_partial` | Classical.choice, Quot.sound, propext |
| `C45_accept_iff` | Classical.choice, Quot.sound, propext |
| `C45_debug_partial` | Classical.choice, Quot.sound, propext |
| `C45_far_partial` | Classical.choice, Quot.sound, propext |
| `C45_counterexample_syn` | Quot.sound, propext |
| `C45_counterexample_data` | Quot.sound, propext |
| `C45_counterexample_state` | Quot.sound, propext |
| `C45_counterexample_sack` | Quot.sound, propext |
| `C46_valid_partial` | Classical.choice, Quot.sound, propext |
| `C46_ids` | Classical.choice, Quot.sound, propext |
| `C46_stored` | Classical.choice, Quot.sound, propext |
| `C46_counterexample` | Quot.sound, propext |
| `C33_changes_partial` | Classical.choice, Quot.sound, propext |
| `C33_fixed` | Classical.choice, Quot.sound, propext |
| `C33_counterexample` | Quot.sound, propext |
| `C35_read` | Classical.choice, Quot.sound, propext |
| `C35_sticky_partial` | Classical.choice, Quot.sound, propext |
| `C35_drain_partial` | Classical.choice, Quot.sound, propext |
| `C35_counterexample` | Quot.sound, propext |
| `C35_read_any` | Classical.choice, Quot.sound, propext |
| `C35_sticky_any_partial` | Classical.choice, Quot.sound, propext |
| `C35_drain_any_partial` | Classical.choice, Quot.sound, propext |
| `C36_read` | Classical.choice, Quot.sound, propext |
| `C36_sticky_partial` | Classical.choice, Quot.sound, propext |
| `C36_reported_partial` | Classical.choice, Quot.sound, propext |
| `C36_counterexample` | Quot.sound, propext |
| `C36_read_any` | Classical.choice, Quot.sound, propext |
| `C36_sticky_any_partial` | Classical.choice, Quot.sound, propext |
| `C36_reported_any_partial` | Classical.choice, Quot.sound, propext |
| `C37_send` | Quot.sound, propext |
| `C37_stays_partial` | Quot.sound, propext |
| `C37_counterexample` | Quot.sound, propext |
| `C34_idempotent` | Quot.sound, propext |
| `C34_fin` | Classical.choice, Quot.sound, propext |
| `C34_ok` | Classical.choice, Quot.sound, propext |
| `C38_when` | Quot.sound, propext |
| `C38_source` | Classical.choice, Quot.sound, propext |
| `C38_partial` | Classical.choice, Quot.sound, propext |
| `C38_counterexample` | Quot.sound, propext |
| `C26_read` | Quot.sound, propext |
| `C26_split` | Quot.sound, propext |
| `C26_all` | Classical.choice, Quot.sound, propext |
| `C26_all_any` | Classical.choice, Quot.sound, propext |
| `C27_partial` | Classical.choice, Quot.sound, propext |
| `C27_counterexample` | Quot.sound, propext |
| `C27_any_partial` | Classical.choice, Quot.sound, propext |
| `C28_sorted` | Classical.choice, Quot.sound, propext |
| `C28_insert` | Classical.choice, Quot.sound, propext |
| `C29_partial` | Classical.choice, Quot.sound, propext |
| `C29_counterexample` | Quot.sound, propext |
| `C29_counterexample_next` | Quot.sound, propext |
| `C30_bits_partial` | Classical.choice, Quot.sound, propext |
| `C30_reply_partial` | Classical.choice, Quot.sound, propext |
| `C30_counterexample` | Quot.sound, propext |
| `C30_counterexample_huge` | Quot.sound, propext |
| `C30_reply_any_partial` | Classical.choice, Quot.sound, propext |
| `C31_partial` | Classical.choice, Quot.sound, propext |
| `C31_counterexample` | Quot.sound, propext |
| `C31_any_partial` | Classical.choice, Quot.sound, propext |
| `C32_ignored` | Classical.choice, Quot.sound, propext |
| `C20_timeout` | Classical.choice, Quot.sound, propext |
| `C42_wait` | Classical.choice, Quot.sound, propext |
| `C20_counterexample` | Quot.sound, propext |
| `C42_gives_up` | Classical.choice, Quot.sound, propext |
| `C42_recv_from` | Classical.choice, Quot.sound, propext |
| `C43_fin` | Classical.choice, Quot.sound, propext |
| `C43_repeat_partial` | Classical.choice, Quot.sound, propext |
| `C43_counterexample` | Quot.sound, propext |
| `C43_fin_any` | Classical.choice, Quot.sound, propext |
| `C43_repeat_any_partial` | Classical.choice, Quot.sound, propext |
| `C44_partial` | Classical.choice, Quot.sound, propext |
| `C44_counterexample` | Quot.sound, propext |
| `C44_counterexample_window` | Quot.sound, propext |
| `C44_any_partial` | Classical.choice, Quot.sound, propext |
| `C39_connect_partial` | Classical.choice, Quot.sound, propext |
| `C39_no_socket` | Quot.sound, propext |
| `C39_syns` | Classical.choice, Quot.sound, propext |
| `C39_ok_partial` | Classical.choice, Quot.sound, propext |
| `C39_counterexample` | Quot.sound, propext |
| `C39_counterexample_stranger` | Quot.sound, propext |
| `C40_listener_partial` | Classical.choice, Quot.sound, propext |
| `C40_counterexample` | Quot.sound, propext |
| `C41_accept_partial` | Quot.sound, propext |
| `C41_socket` | Classical.choice, Quot.sound, propext |
| `C41_others` | Classical.choice, Quot.sound, propext |
| `C41_incoming` | Quot.sound, propext |
| `C41_counterexample` | Quot.sound, propext |
| `C49_read` | Quot.sound, propext |
| `C49_kept_partial` | Classical.choice, Quot.sound, propext |
| `C49_counterexample` | Quot.sound, propext |
| `C50_write_partial` | Quot.sound, propext |
| `C50_once` | Quot.sound, propext |
| `C50_counterexample` | Quot.sound, propext |
| `C51_partial` | Classical.choice, Quot.sound, propext |
| `C51_counterexample_always` | Quot.sound, propext |
| `C51_counterexample` | Quot.sound, propext |
| `C52_counterexample` | Quot.sound, propext |
| `C52_flushes` | Quot.sound, propext |
| `C53_partial` | Quot.sound, propext |
| `C53_counterexample` | Quot.sound, propext |
| `C25_all` | Quot.sound, propext |
| `C25_stream` | Quot.sound, propext |
| `C25_accepted` | Quot.sound, propext |
| `C25_connected_partial` | Quot.sound, propext |
| `C25_counterexample` | Quot.sound, propext |
| `C24_partial` | Classical.choice, Quot.sound, propext |
| `C24_client_partial` | Classical.choice, Quot.sound, propext |
| `C24_counterexample` | Quot.sound, propext |
| `C24_counterexample_send` | Quot.sound, propext |
| `C24_counterexample_wrap` | Quot.sound, propext |
| `C24_counterexample_first` | Quot.sound, propext |
| `C13_none` | Classical.choice, Quot.sound, propext |
| `C13_one` | Classical.choice, Quot.sound, propext |
| `C13_between` | Classical.choice, Quot.sound, propext |
| `C13_min_max` | Classical.choice, Quot.sound, propext |
| `C13_weighted` | Classical.choice, Quot.sound, propext |
| `C13_window` | Quot.sound, propext |
| `C13_f64` | Classical.choice, Quot.sound, propext |
| `C13_f64_one` | Classical.choice, Quot.sound, propext |
| `C13_f64_none` | Classical.choice, Quot.sound, propext |
| `C13_samples` | Classical.choice, Quot.sound, propext |
| `rne_nearest` | Classical.choice, Quot.sound, propext |
| `C18_send` | Classical.choice, Quot.sound, propext |
| `C18_realTime` | Quot.sound, propext |
| `C19_fast` | Classical.choice, Quot.sound, propext |
| `C19_sack_partial` | Classical.choice, Quot.sound, propext |
| `C19_counterexample` | Quot.sound, propext |
| `C19_wrap_counterexample` | Quot.sound, propext |
| `C19_sack_any_partial` | Classical.choice, Quot.sound, propext |
| `C22_partial` | Classical.choice, Quot.sound, propext |
| `C22_forever` | Classical.choice, Quot.sound, propext |
| `C22_counterexample` | Classical.choice, Quot.sound, propext |
| `C23_partial` | Classical.choice, Quot.sound, propext |
| `C23_counterexample` | Quot.sound, propext |
| `C47_partial` | Classical.choice, Quot.sound, propext |
| `C47_counterexample` | Quot.sound, propext |
| `C47_counterexample_wrap` | Classical.choice, Quot.sound, propext |
| `C48_partial` | Classical.choice, Quot.sound, propext |
| `C48_all_partial` | Classical.choice, Quot.sound, propext |
| `C48_counterexample` | Quot.sound, propext |
| `C48_counterexample_wrap` | Classical.choice, Quot.sound, propext |
| `C55_connect` | Classical.choice, Quot.sound, propext |
| `C55_accept_partial` | Quot.sound, propext |
| `C55_counterexample` | Quot.sound, propext |
| `C56_silent` | Quot.sound, propext |
| `C56_close_partial` | Classical.choice, Quot.sound, propext |
| `C56_never_fails` | Quot.sound, propext |
| `C56_counterexample` | Quot.sound, propext |
| `C56_counterexample_unsent` | Quot.sound, propext |
| `C57_partial` | Classical.choice, Quot.sound, propext |
| `C57_fuel` | Quot.sound, propext |
| `C57_fuel_log` | Quot.sound, propext |
| `C57_timed` | Classical.choice, Quot.sound, propext |
| `C57_flooded` | Classical.choice, Quot.sound, propext |
| `C57_counterexample` | Classical.choice, Quot.sound, propext |
| `C58_op` | Quot.sound, propext |
| `C58_calls` | Quot.sound, propext |
| `C58_connect` | Classical.choice, Quot.sound, propext |
| `C58_accept` | Quot.sound, propext |
| `C58_reach` | Classical.choice, Quot.sound, propext |
| `C59_direction` | Classical.choice, Quot.sound, propext |
| `C59_monotone` | Classical.choice, Quot.sound, propext |
| `C59_growth` | Classical.choice, Quot.sound, propext |
| `C59_shrink` | Classical.choice, Quot.sound, propext |
| `C59_changes_partial` | Classical.choice, Quot.sound, propext |
| `C59_counterexample` | Classical.choice, Quot.sound, propext |
| `C60_range_partial` | Classical.choice, Quot.sound, propext |
| `C60_counterexample` | Classical.choice, Quot.sound, propext |
| `C61_changes_partial` | Classical.choice, Quot.sound, propext |
| `C61_counterexample` | Classical.choice, Quot.sound, propext |
| `C62_changes_partial` | Classical.choice, Quot.sound, propext |
| `C62_counterexample` | Classical.choice, Quot.sound, propext |
| `C63_ack` | Classical.choice, Quot.sound, propext |
| `C63_repeated` | Quot.sound, propext |
| `C63_third` | Classical.choice, Quot.sound, propext |
| `C63_start` | Quot.sound, propext |
| `C64_causes` | Classical.choice, Quot.sound, propext |
| `C64_never` | Classical.choice, Quot.sound, propext |
| `C64_reported` | Quot.sound, propext |
| `C65_partial` | Classical.choice, Quot.sound, propext |
| `C65_op_partial` | Classical.choice, Quot.sound, propext |
| `C65_ignorant` | Classical.choice, Quot.sound, propext |
| `C65_unprovoked` | Classical.choice, Quot.sound, propext |
| `C65_counterexample` | Quot.sound, propext |
| `C66_partial` | Classical.choice, Quot.sound, propext |
| `C66_close_partial` | Classical.choice, Quot.sound, propext |
| `C66_last` | Classical.choice, Quot.sound, propext |
| `C66_unnamed` | Classical.choice, Quot.sound, propext |
| `C66_sent_partial` | Classical.choice, Quot.sound, propext |
| `C66_counterexample` | Quot.sound, propext |
| `C67_transfer_partial` | Classical.choice, Quot.sound, propext |
| `C67_conversation_partial` | Classical.choice, Quot.sound, propext |
| `C67_handshake` | Classical.choice, Quot.sound, propext |
| `C67_connection_partial` | Classical.choice, Quot.sound, propext |
| `C68_close` | Classical.choice, Quot.sound, propext |
| `C68_both` | Classical.choice, Quot.sound, propext |
| `C68_session_partial` | Classical.choice, Quot.sound, propext |
| `C69_one_by_one` | Quot.sound, propext |
| `C69_reach` | Quot.sound, propext |
| `C69_close` | Classical.choice, Quot.sound, propext |
| `C69_counterexample` | Classical.choice, Quot.sound, propext |
| `C70_partial` | Quot.sound, propext |
| `C70_counterexample` | Quot.sound, propext |
| `C70_counterexample_always` | Quot.sound, propext |
| `C71_socket` | Classical.choice, Quot.sound, propext |
| `C71_slots` | Classical.choice, Quot.sound, propext |
| `C72_each` | Classical.choice, Quot.sound, propext |
| `C72_once` | Classical.choice, Quot.sound, propext |
| `C72_kept` | Classical.choice, Quot.sound, propext |
| `C72_incoming` | Classical.choice, Quot.sound, propext |
| `C72_ready` | Quot.sound, propext |
| `C72_endless` | Quot.sound, propext |
| `C72_counterexample` | Classical.choice, Quot.sound, propext |
| `C73_partial` | Classical.choice, Quot.sound, propext |
| `C73_counterexample` | Quot.sound, propext |
| `C74_drop` | Classical.choice, Quot.sound, propext |
| `C74_ends` | Classical.choice, Quot.sound, propext |
| `C74_fin` | Classical.choice, Quot.sound, propext |
| `C75_partial` | Quot.sound, propext |
| `C75_served_partial` | Quot.sound, propext |
| `C75_forgotten` | Quot.sound, propext |
| `C75_counterexample` | Quot.sound, propext |
| `C76_cat` | Classical.choice, Quot.sound, propext |
| `C76_stream` | Classical.choice, Quot.sound, propext |
| `C77_partial` | Classical.choice, Quot.sound, propext |
| `C77_connection_partial` | Classical.choice, Quot.sound, propext |
| `C77_counterexample` | Quot.sound, propext |
| `C77_counterexample_batch` | Classical.choice, Quot.sound, propext |
| `C77_counterexample_overtake` | Classical.choice, Quot.sound, propext |
| `C77_counterexample_debug` | Quot.sound, propext |
| `C78_partial` | Classical.choice, Quot.sound, propext |
| `C78_connection_partial` | Classical.choice, Quot.sound, propext |
| `C78_counterexample` | Classical.choice, Quot.sound, propext |
| `C79_partial` | Quot.sound, propext |
| `C79_sent` | Classical.choice, Quot.sound, propext |
| `C79_stuck` | Quot.sound, propext |
| `C79_counterexample` | Quot.sound, propext |
| `C80_partial` | Classical.choice, Quot.sound, propext |
| `C80_sent` | Classical.choice, Quot.sound, propext |
| `C80_limit` | Classical.choice, Quot.sound, propext |
| `C80_counterexample` | Quot.sound, propext |
| `C81_partial` | Classical.choice, Quot.sound, propext |
| `C81_ignored` | Classical.choice, Quot.sound, propext |
| `C81_counterexample` | Quot.sound, propext |
| `C82_partial` | Classical.choice, Quot.sound, propext |
| `C82_held` | Classical.choice, Quot.sound, propext |
| `C82_counterexample` | Classical.choice, Quot.sound, propext |
| `C83_partial` | Classical.choice, Quot.sound, propext |
| `C83_blind` | Quot.sound, propext |
| `C83_runs` | Quot.sound, propext |
| `C83_counterexample` | Quot.sound, propext |
| `C84_partial` | Classical.choice, Quot.sound, propext |
| `C84_reads` | Classical.choice, Quot.sound, propext |
| `C84_counterexample` | Quot.sound, propext |
| `C85_punctual` | Classical.choice, Quot.sound, propext |
| `C85_sent` | Classical.choice, Quot.sound, propext |
| `C85_order` | Classical.choice, Quot.sound, propext |
| `C86_connect_partial` | Classical.choice, Quot.sound, propext |
| `C86_accept_partial` | Classical.choice, Quot.sound, propext |
| `C86_counterexample_fin` | Quot.sound, propext |
| `C86_counterexample_repeat` | Quot.sound, propext |
| `C86_counterexample_ahead` | Quot.sound, propext |
| `C87_partial` | Classical.choice, Quot.sound, propext |
| `C87_closed_partial` | Classical.choice, Quot.sound, propext |
| `C87_counterexample` | Quot.sound, propext |
| `C87_counterexample_timeout` | Quot.sound, propext |
| `C88_partial` | Classical.choice, Quot.sound, propext |
| `C88_order_partial` | Classical.choice, Quot.sound, propext |
| `C88_flushed_partial` | Classical.choice, Quot.sound, propext |
| `C88_counterexample` | Quot.sound, propext |
| `C88_counterexample_order` | Quot.sound, propext |
| `C89_op` | Classical.choice, Quot.sound, propext |
| `C89_runs` | Classical.choice, Quot.sound, propext |
| `C89_bind` | propext |
| `C89_connect` | Classical.choice, Quot.sound, propext |
| `C89_accept` | Classical.choice, Quot.sound, propext |
| `C89_origin` | Classical.choice, Quot.sound, propext |
| `C89_sent` | Classical.choice, Quot.sound, propext |
| `C89_read` | Classical.choice, Quot.sound, propext |
| `C89_translate` | Classical.choice, Quot.sound, propext |
| `C90_counterexample` | Quot.sound, propext |
| `C90_nests` | Quot.sound, propext |
| `C90_never` | Quot.sound, propext |
| `C90_cause_partial` | Classical.choice, Quot.sound, propext |
| `C90_depth_partial` | Classical.choice, Quot.sound, propext |
| `C90_connected_partial` | Classical.choice, Quot.sound, propext |
| `C91_measured_partial` | Classical.choice, Quot.sound, propext |
| `C91_counterexample_timeout` | Classical.choice, Quot.sound, propext |
| `C91_counterexample_resent` | Classical.choice, Quot.sound, propext |
| `C91_counterexample_unsent` | Classical.choice, Quot.sound, propext |
| `C92_in_order` | Classical.choice, Quot.sound, propext |
| `C92_once` | Classical.choice, Quot.sound, propext |
| `C92_silent` | Classical.choice, Quot.sound, propext |
| `C93_partial` | Classical.choice, Quot.sound, propext |
| `C93_big_partial` | Classical.choice, Quot.sound, propext |
| `C93_counterexample` | Quot.sound, propext |
| `C94_partial` | Classical.choice, Quot.sound, propext |
| `C94_gap` | Classical.choice, Quot.sound, propext |
| `C94_counterexample` | Quot.sound, propext |
| `C95_partial` | Classical.choice, Quot.sound, propext |
| `C95_read` | Classical.choice, Quot.sound, propext |
| `C95_acknowledged` | Classical.choice, Quot.sound, propext |
| `C95_counterexample` | Quot.sound, propext |
| `C96_partial` | Quot.sound, propext |
| `C96_forever` | Classical.choice, Quot.sound, propext |
| `C96_counterexample` | Quot.sound, propext |
| `C97_partial` | Classical.choice, Quot.sound, propext |
| `C97_all_partial` | Classical.choice, Quot.sound, propext |
| `C97_session_partial` | Classical.choice, Quot.sound, propext |
| `C97_counterexample` | Quot.sound, propext |
| `C98_partial` | Classical.choice, Quot.sound, propext |
| `C98_counterexample` | Quot.sound, propext |
| `C99_partial` | Classical.choice, Quot.sound, propext |
| `C99_counterexample` | Quot.sound, propext |
| `C100_partial` | Classical.choice, Quot.sound, propext |
| `C100_counterexample` | Quot.sound, propext |
| `C101_partial` | Quot.sound, propext |
| `C101_mute` | Classical.choice, Quot.sound, propext |
| `C101_counterexample` | Quot.sound, propext |
| `C102_partial` | Quot.sound, propext |
| `C102_effect` | Classical.choice, Quot.sound, propext |
| `C102_times` | Classical.choice, Quot.sound, propext |
| `C102_counterexample` | Quot.sound, propext |
| `C103_partial` | Quot.sound, propext |
| `C103_read` | Quot.sound, propext |
| `C103_nothing` | Quot.sound, propext |
| `C103_counterexample` | Quot.sound, propext |
| `C104_enters` | Classical.choice, Quot.sound, propext |
| `C104_stays` | Classical.choice, Quot.sound, propext |
| `C104_happens` | Quot.sound, propext |
| `C105_lost` | Classical.choice, Quot.sound, propext |
| `C105_silent` | Classical.choice, Quot.sound, propext |
| `C106_shown` | Classical.choice, Quot.sound, propext |
| `C106_accepted` | Classical.choice, Quot.sound, propext |
| `C106_held` | Classical.choice, Quot.sound, propext |
| `C106_sent` | Classical.choice, Quot.sound, propext |
| `C106_elapsed` | Classical.choice, Quot.sound, propext |
| `C106_errors` | Classical.choice, Quot.sound, propext |
| `C107_lost` | Classical.choice, Quot.sound, propext |
| `C108_transfer_partial` | Classical.choice, Quot.sound, propext |
| `C108_close` | Classical.choice, Quot.sound, propext |
| `C109_fin_lost_partial` | Classical.choice, Quot.sound, propext |
| `C109_answer_lost` | Classical.choice, Quot.sound, propext |
| `C109_counterexample` | Classical.choice, Quot.sound, propext |
| `C110_clock_partial` | Classical.choice, Quot.sound, propext |
| `C110_counterexample` | Quot.sound, propext |
| `C111_identifiers` | Classical.choice, Quot.sound, propext |
| `C111_connect` | Classical.choice, Quot.sound, propext |
| `C111_accept` | Classical.choice, Quot.sound, propext |
| `C112_start_partial` | Classical.choice, Quot.sound, propext |
| `C112_low_partial` | Classical.choice, Quot.sound, propext |
| `C112_counterexample_accept` | Quot.sound, propext |
| `C112_counterexample_sack` | Quot.sound, propext |
| `C112_counterexample_debug` | Quot.sound, propext |
| `C113_start_partial` | Classical.choice, Quot.sound, propext |
| `C113_accept_partial` | Classical.choice, Quot.sound, propext |
| `C113_counterexample_connect` | Quot.sound, propext |
| `C113_counterexample_order` | Quot.sound, propext |
| `C113_counterexample_debug` | Quot.sound, propext |
| `C114_hints` | Classical.choice, Quot.sound, propext |
| `C115_runs` | Classical.choice, Quot.sound, propext |
| `C115_times` | Classical.choice, Quot.sound, propext |
| `C115_connect` | Classical.choice, Quot.sound, propext |
| `C115_accept` | Classical.choice, Quot.sound, propext |
| `C116_runs` | Classical.choice, Quot.sound, propext |
| `C116_window` | Classical.choice, Quot.sound, propext |
| `C116_connect` | Classical.choice, Quot.sound, propext |
| `C116_accept` | Classical.choice, Quot.sound, propext |
| `C117_runs` | Classical.choice, Quot.sound, propext |
| `C117_exts` | Classical.choice, Quot.sound, propext |
| `C117_connect` | Classical.choice, Quot.sound, propext |
| `C117_accept` | Classical.choice, Quot.sound, propext |
| `C118_runs` | Classical.choice, Quot.sound, propext |
| `C118_unread` | Classical.choice, Quot.sound, propext |
| `C118_connect` | Classical.choice, Quot.sound, propext |
| `C118_accept` | Classical.choice, Quot.sound, propext |
| `C118_sharp` | Quot.sound, propext |
| `C119_runs` | Quot.sound, propext |
| `C119_set` | Quot.sound, propext |
| `C120_split` | Quot.sound, propext |
| `C120_many` | Quot.sound, propext |
| `C120_sharp` | Quot.sound, propext |
| `C121_runs` | Quot.sound, propext |
| `C121_log` | Quot.sound, propext |
| `C121_connect` | Quot.sound, propext |
| `C121_accept` | Quot.sound, propext |
| `C122_pieces` | Classical.choice, Quot.sound, propext |
| `C122_sharp` | Quot.sound, propext |
