# Axioms of the theorems in the manifest

Output of `#print axioms`, grouped.

## (none)

* `Verif.TcLink.C113_tcx`
* `Verif.Verdict.C116_args_violated`
* `Verif.Verdict.C116_two_violated`
* `Verif.Btf.C13_new_violated`
* `Verif.Btf.C13_unknown_kind_violated`
* `Verif.Btf.C13_layout_violated`
* `Verif.Obj.C26_pinning_unchecked_violated`
* `Verif.Maps.C31_zero`
* `Verif.Maps.C31_overflow_violated`
* `Verif.Maps.C37_fused`
* `Verif.Handles.C75_same_map`
* `Verif.Ebpf.Args.C79_arm_count_violated`
* `Verif.Ebpf.Read.C81_store_offset_violated`
* `Verif.Features.C86_refusal_reported`
* `Verif.Features.C86_second_limit_violated`
* `Verif.Ctx.C99_flags_violated`

## propext

* `Verif.Linker.C08_program_calls_program_violated`
* `Verif.Reloc.C10_wrong_map_violated`
* `Verif.Local.C100_sizes`
* `Verif.Nested.Race.C103_closed`
* `Verif.RingBuf.Many.C104_twice_violated`
* `Verif.RingBuf.Many.C104_held_violated`
* `Verif.RingBuf.Many.C104_unwoken_violated`
* `Verif.Stacks.C107_not_found_violated`
* `Verif.Stacks.C107_zero_violated`
* `Verif.Exit.C110_left_violated`
* `Verif.Exit.C110_classifier_violated`
* `Verif.Stats.C111_missed_violated`
* `Verif.Stats.C111_time_violated`
* `Verif.Stats.C111_after_violated`
* `Verif.Stats.C111_disabled_violated`
* `Verif.Reload.C112_rodata_violated`
* `Verif.Reload.C112_race_violated`
* `Verif.Reload.C112_reset_violated`
* `Verif.Reload.C112_size_violated`
* `Verif.Reload.C112_zeros_violated`
* `Verif.Modules.C114_release_violated`
* `Verif.Builds.C117_mismatch_violated`
* `Verif.Builds.C117_ambiguous_violated`
* `Verif.Builds.C117_eleventh_violated`
* `Verif.Builds.C117_first_violated`
* `Verif.Fetch.C118_together_violated`
* `Verif.Cpio.C119_long_violated`
* `Verif.Btf.C16_matrix_violated`
* `Verif.Btf.C17_panic_violated`
* `Verif.Core.C18_far_violated`
* `Verif.Core.C18_signed_violated`
* `Verif.Core.C19_bitfield_violated`
* `Verif.Core.C19_next_violated`
* `Verif.Core.C20_cycle_violated`
* `Verif.Core.C21_order_violated`
* `Verif.Core.C21_width_violated`
* `Verif.Obj.C23_duplicate_name_violated`
* `Verif.Obj.C26_rejected`
* `Verif.Util.C27_at_least_unknown`
* `Verif.Util.C27_code_monotone_violated`
* `Verif.Maps.C29_one_value_per_cpu`
* `Verif.Maps.C30_error_ends`
* `Verif.Maps.C30_duplicate_after_restart_violated`
* `Verif.Maps.C31_ringbuf_size`
* `Verif.Maps.C31_other_sizes`
* `Verif.Maps.C32_out_of_bounds`
* `Verif.Links.C34_lirc_violated`
* `Verif.Links.C34_xdp_netlink_violated`
* `Verif.Links.C34_replace_failure_violated`
* `Verif.Maps.C37_error_last`
* `Verif.Log.C45_unknown_kind_violated`
* `Verif.UProbe.C49_empty_map`
* `Verif.Util.C51_parse_wf`
* `Verif.Maps.C58_opened`
* `Verif.Maps.C58_buffers`
* `Verif.Maps.C58_reused_pin_violated`
* `Verif.Netlink.C60_attach_errors`
* `Verif.Netlink.C60_short_payload_unchecked`
* `Verif.UProbe.C62_no_panic_partial`
* `Verif.UProbe.Cache.C63_positions_violated`
* `Verif.Core.C64_local_id`
* `Verif.Core.C64_missing_type_violated`
* `Verif.Core.C64_replaced_violated`
* `Verif.ObjMaps.C66_large_bss_violated`
* `Verif.Ext.C67_panic_violated`
* `Verif.Attach.Xdp.C68_detached_link`
* `Verif.Attach.Xdp.C68_replaced_link`
* `Verif.Attach.Xdp.C68_detach_other_violated`
* `Verif.Attach.Xdp.C68_nul_violated`
* `Verif.Attach.Xdp.C68_replace_failed`
* `Verif.Attach.Fd.C70_detached_link`
* `Verif.Attach.Fd.C70_detached_prog_partial`
* `Verif.Attach.Fd.C70_single_violated`
* `Verif.Attach.Fd.C70_detach_other_violated`
* `Verif.Attach.Fd.C70_limit`
* `Verif.Attach.Load.C71_refused`
* `Verif.Attach.Load.C71_extension_violated`
* `Verif.Attach.Load.C71_no_btf`
* `Verif.Loader.C73_forced_extension_violated`
* `Verif.Run.C77_tracing`
* `Verif.Run.C77_not_loaded`
* `Verif.Attach.Query.C78_device_violated`
* `Verif.Attach.Query.C78_device_failed_violated`
* `Verif.Ebpf.Args.C79_no_argument_partial`
* `Verif.Ebpf.Read.C81_length_bounded`
* `Verif.Ebpf.Read.C81_packet_store_partial`
* `Verif.Info.C85_from_pin_violated`
* `Verif.Pins.C89_nul_violated`
* `Verif.Externs.C90_order_violated`
* `Verif.Jump.C95_stays_violated`
* `Verif.Jump.C95_indices_violated`
* `Verif.Helpers.C96_compare_violated`
* `Verif.Socks.C97_owned_violated`
* `Verif.Socks.C97_indices_violated`
* `Verif.Ctx.C99_xdp`
* `Verif.Ctx.C99_msg`
* `Verif.Ctx.C99_port_partial`
* `Verif.Ctx.C99_push`
* `Verif.Ctx.C99_pop`
* `Verif.Ctx.C99_offset_violated`

## propext Classical.choice Quot.sound

* `Verif.RingBuf.C01_delivered_exact_partial`
* `Verif.RingBuf.C01_none_means_drained_partial`
* `Verif.RingBuf.C01_no_panic_partial`
* `Verif.RingBuf.C01_next_returns_partial`
* `Verif.RingBuf.C02_held_stable_partial`
* `Verif.RingBuf.C03_no_lost_wakeup_partial`
* `Verif.RingBuf.C03_position_published_partial`
* `Verif.Perf.C04_try_fold`
* `Verif.Perf.C04_delivers_all`
* `Verif.Perf.C04_open_power_of_two`
* `Verif.Perf.C05_batches`
* `Verif.Perf.C05_final_read_completes`
* `Verif.Linker.C06_calls_right_partial`
* `Verif.Linker.C06_entry_first_partial`
* `Verif.Linker.C07_terminates`
* `Verif.Linker.C07_succeeds`
* `Verif.Linker.C07_each_once_partial`
* `Verif.Linker.C08_order_independent_partial`
* `Verif.Linker.C08_as_if_alone_partial`
* `Verif.Linker.C09_info_follows_code_partial`
* `Verif.Linker.C09_line_info_increasing_partial`
* `Verif.Reloc.C10_maps_patched_partial`
* `Verif.Local.C100_histories`
* `Verif.Local.C100_read_back`
* `Verif.Local.C100_removed`
* `Verif.Local.C100_asked`
* `Verif.Local.C100_created`
* `Verif.Local.C100_pointer_partial`
* `Verif.Local.C100_cgroup_value`
* `Verif.Local.C100_cgroup_values`
* `Verif.Local.C100_refused`
* `Verif.Local.C100_array`
* `Verif.Redirect.C101_get_partial`
* `Verif.Redirect.C101_iter_partial`
* `Verif.Redirect.C101_program_partial`
* `Verif.Redirect.C101_redirect_partial`
* `Verif.Redirect.C101_broadcast_partial`
* `Verif.Redirect.C101_flags`
* `Verif.Redirect.C101_exists_partial`
* `Verif.Redirect.C101_sets_partial`
* `Verif.Redirect.C101_refused`
* `Verif.Redirect.C101_load`
* `Verif.Conv.C102_histories`
* `Verif.Conv.C102_none_left_partial`
* `Verif.Conv.C102_closed`
* `Verif.Conv.C102_round_trip`
* `Verif.Conv.C102_type`
* `Verif.Conv.C102_info`
* `Verif.Conv.C102_iter`
* `Verif.Nested.Race.C103_got`
* `Verif.Nested.Race.C103_stored_partial`
* `Verif.Nested.Race.C103_failed`
* `Verif.Nested.Race.C103_succeeds`
* `Verif.Nested.Race.C103_missing`
* `Verif.Nested.Race.C103_put`
* `Verif.Nested.Race.C103_reused_violated`
* `Verif.RingBuf.Many.C104_turns_partial`
* `Verif.RingBuf.Many.C104_turns_held_partial`
* `Verif.RingBuf.Many.C104_first_lap_partial`
* `Verif.RingBuf.Many.C104_in_bounds`
* `Verif.LogAttach.C105_attached_partial`
* `Verif.LogAttach.C105_succeeds`
* `Verif.LogAttach.C105_no_log`
* `Verif.LogAttach.C105_no_program`
* `Verif.LogAttach.C105_hidden_error_violated`
* `Verif.LogAttach.C105_passed_over_violated`
* `Verif.LogAttach.C105_remembered_violated`
* `Verif.LogAttach.C105_not_a_ring_violated`
* `Verif.Build.C106_built_partial`
* `Verif.Build.C106_failures`
* `Verif.Build.C106_succeeds_partial`
* `Verif.Build.C106_build_core`
* `Verif.Build.C106_no_deadlock`
* `Verif.Build.C106_one_flag`
* `Verif.Build.C106_host_partial`
* `Verif.Build.C106_skips`
* `Verif.Build.C106_same_name_violated`
* `Verif.Build.C106_reserved_name_violated`
* `Verif.Build.C106_host_violated`
* `Verif.Build.C106_char_violated`
* `Verif.Stacks.C107_got_partial`
* `Verif.Stacks.C107_kept_partial`
* `Verif.Stacks.C107_missing`
* `Verif.Stacks.C107_get_leaves`
* `Verif.Stacks.C107_removed`
* `Verif.Stacks.C107_iterated`
* `Verif.Hygiene.C108_transparent_partial`
* `Verif.Hygiene.C108_expands`
* `Verif.Listing.C109_links_partial`
* `Verif.Listing.C109_errors`
* `Verif.Listing.C109_descriptors`
* `Verif.Listing.C109_ends`
* `Verif.Reloc.C11_externs_patched`
* `Verif.Reloc.C11_missing_strong_fails`
* `Verif.Reloc.C11_no_panic_partial`
* `Verif.Reloc.C11_call_of_variable_violated`
* `Verif.Exit.C110_left_partial`
* `Verif.Exit.C110_modern`
* `Verif.Exit.C110_entries_partial`
* `Verif.Exit.C110_dropped_partial`
* `Verif.Exit.C110_first_start`
* `Verif.Exit.C110_perf_event_violated`
* `Verif.Exit.C110_restart_violated`
* `Verif.Stats.C111_count_partial`
* `Verif.Stats.C111_time_partial`
* `Verif.Stats.C111_exact`
* `Verif.Stats.C111_released`
* `Verif.Reload.C112_stays`
* `Verif.Reload.C112_loaded`
* `Verif.Reload.C112_shared`
* `Verif.Reload.C112_contents_partial`
* `Verif.Reload.C112_again_partial`
* `Verif.Reload.C112_again_plain`
* `Verif.TcLink.C113_attached`
* `Verif.TcLink.C113_outlives`
* `Verif.TcLink.C113_removed`
* `Verif.TcLink.C113_gone_partial`
* `Verif.TcLink.C113_once_more_partial`
* `Verif.Modules.C114_found_partial`
* `Verif.Modules.C114_absent_partial`
* `Verif.Decls.C115_declared`
* `Verif.Decls.C115_accepted_partial`
* `Verif.Decls.C115_needed`
* `Verif.Decls.C115_trie_violated`
* `Verif.Decls.C115_empty_violated`
* `Verif.Decls.C115_bloom_violated`
* `Verif.Decls.C115_flags_violated`
* `Verif.Decls.C115_unused_violated`
* `Verif.Decls.C115_cut_violated`
* `Verif.Decls.C115_align_violated`
* `Verif.Verdict.C116_verdict_partial`
* `Verif.Verdict.C116_user_partial`
* `Verif.Verdict.C116_all`
* `Verif.Verdict.C116_once`
* `Verif.Verdict.C116_hang`
* `Verif.Verdict.C116_empty_violated`
* `Verif.Verdict.C116_none_violated`
* `Verif.Verdict.C116_unfinished_violated`
* `Verif.Verdict.C116_forged_violated`
* `Verif.Builds.C117_newest`
* `Verif.Builds.C117_found_partial`
* `Verif.Reloc.C12_no_panic_partial`
* `Verif.Reloc.C12_last_instruction_violated`
* `Verif.Btf.C13_roundtrip_partial`
* `Verif.Btf.C13_reparse_partial`
* `Verif.Btf.C13_built_partial`
* `Verif.Btf.C14_records`
* `Verif.Btf.C14_only_supported_partial`
* `Verif.Btf.C14_well_formed`
* `Verif.Core.C18_field_partial`
* `Verif.Core.C18_accepted`
* `Verif.Core.C19_patch`
* `Verif.Core.C19_only_relocated`
* `Verif.Core.C19_every_record`
* `Verif.Core.C19_succeeds`
* `Verif.Core.C20_spelled`
* `Verif.Core.C20_path_partial`
* `Verif.Core.C20_missing_partial`
* `Verif.Core.C20_compatible`
* `Verif.Core.C21_choice_partial`
* `Verif.Core.C21_order_partial`
* `Verif.Core.C21_reported`
* `Verif.Core.C21_resolved`
* `Verif.Section.C22_section_name`
* `Verif.Section.C22_rejected`
* `Verif.Section.C22_unambiguous`
* `Verif.Section.C22_is_program`
* `Verif.Section.C22_section_kinds`
* `Verif.Obj.C23_frame`
* `Verif.Obj.C23_written_partial`
* `Verif.Obj.C23_errors`
* `Verif.Obj.C23_succeeds`
* `Verif.Obj.C24_decode`
* `Verif.Obj.C24_roundtrip`
* `Verif.Obj.C26_full_partial`
* `Verif.Obj.C26_short_partial`
* `Verif.Obj.C26_minimal`
* `Verif.Util.C27_at_least`
* `Verif.Util.C27_code_is_linux_version_code`
* `Verif.Util.C27_code_monotone_partial`
* `Verif.Util.C28_parse_exact`
* `Verif.Util.C28_kernel_format_sorted`
* `Verif.Util.C28_sysfs_file`
* `Verif.Util.C28_accepts_iff`
* `Verif.Maps.C30_unmodified`
* `Verif.Maps.C30_removals_skipped`
* `Verif.Maps.C31_rounded_partial`
* `Verif.Maps.C32_set_then_get`
* `Verif.Links.C34_at_most_once`
* `Verif.Links.C34_accounted_for`
* `Verif.Links.C34_none_lost_partial`
* `Verif.Links.C34_drop_detaches`
* `Verif.Links.C34_taken_stays`
* `Verif.Links.C35_attach`
* `Verif.Retry.C36_retry`
* `Verif.Retry.C36_no_stale_log`
* `Verif.Retry.C36_non_utf8_log_violated`
* `Verif.Maps.C37_enumeration`
* `Verif.Maps.C37_exact`
* `Verif.Netlink.C39_roundtrip`
* `Verif.Netlink.C39_xdp_request`
* `Verif.Netlink.C39_clsact_request`
* `Verif.Netlink.C39_tc_attach_request`
* `Verif.Netlink.C40_iterator`
* `Verif.Netlink.C40_slices`
* `Verif.Netlink.C41_multipart_partial`
* `Verif.Netlink.C41_last_datagram_partial`
* `Verif.Netlink.C41_ack`
* `Verif.Netlink.C41_waits_partial`
* `Verif.Netlink.C41_error_partial`
* `Verif.Netlink.C41_long_datagram_violated`
* `Verif.Log.C42_logged_as_written_partial`
* `Verif.Log.C42_sent`
* `Verif.Log.C43_no_crash_partial`
* `Verif.Log.C43_hex_array_violated`
* `Verif.Log.C44_parses`
* `Verif.Log.C44_rejects_partial`
* `Verif.Log.C44_exact_partial`
* `Verif.Log.C44_stray_closers_violated`
* `Verif.Log.C45_any_order`
* `Verif.Log.C45_empty_message`
* `Verif.UProbe.C46_resolved`
* `Verif.UProbe.C46_debug_file_violated`
* `Verif.UProbe.C46_debug_file_fails`
* `Verif.UProbe.C47_resolved`
* `Verif.UProbe.C47_attached`
* `Verif.UProbe.C48_kernel_line_partial`
* `Verif.UProbe.C48_accepted_iff`
* `Verif.UProbe.C48_inode_violated`
* `Verif.UProbe.C48_trailing_space_violated`
* `Verif.UProbe.C49_lookup_partial`
* `Verif.UProbe.C49_only_such`
* `Verif.UProbe.C49_other_library_violated`
* `Verif.UProbe.C49_inode_violated`
* `Verif.Ksyms.C50_kernel_line_listed`
* `Verif.Ksyms.C50_no_strong_missing`
* `Verif.Util.C51_parse_release`
* `Verif.Util.C51_source_precedence`
* `Verif.Util.C51_ubuntu_signature`
* `Verif.Util.C51_debian_version`
* `Verif.Util.C52_symbol_line_partial`
* `Verif.Util.C52_module_suffix_violated`
* `Verif.Util.C53_name_roundtrip`
* `Verif.Section.C54_macro_roundtrip`
* `Verif.Section.C54_macro_is_program`
* `Verif.Obj.C55_functions_tile`
* `Verif.Obj.C55_accepts`
* `Verif.Obj.C55_program`
* `Verif.Maps.C56_step`
* `Verif.Maps.C56_sequence`
* `Verif.Maps.C56_iteration`
* `Verif.Netlink.C59_find_partial`
* `Verif.Netlink.C59_detach_partial`
* `Verif.Netlink.C59_detach_refused_partial`
* `Verif.Netlink.C60_attach_reply`
* `Verif.Btf.C61_found`
* `Verif.Btf.C61_complete`
* `Verif.UProbe.C62_failed`
* `Verif.UProbe.C62_detached`
* `Verif.UProbe.C62_names`
* `Verif.UProbe.C62_multi`
* `Verif.UProbe.C62_fallback`
* `Verif.UProbe.C62_event_leak_violated`
* `Verif.UProbe.C62_nul_path_violated`
* `Verif.UProbe.C63_target`
* `Verif.UProbe.C63_unknown_target`
* `Verif.UProbe.Cache.C63_cache_partial`
* `Verif.UProbe.Cache.C63_old_count_violated`
* `Verif.Core.C64_enum_value`
* `Verif.Core.C64_enum_exists`
* `Verif.Core.C64_field_exists_partial`
* `Verif.Core.C64_type_exists_partial`
* `Verif.Core.C64_type_value_partial`
* `Verif.ObjMaps.C65_definition`
* `Verif.ObjMaps.C65_c_sizes_partial`
* `Verif.ObjMaps.C65_variable`
* `Verif.ObjMaps.C66_maps_partial`
* `Verif.Ext.C67_records_partial`
* `Verif.Ext.C67_panic_only_partial`
* `Verif.Ext.C67_truncated`
* `Verif.Attach.Xdp.C68_round_trip`
* `Verif.Attach.Tcx.C69_round_trip`
* `Verif.Attach.Tcx.C69_default`
* `Verif.Attach.Tcx.Filter.C69_filter_round_trip`
* `Verif.Attach.Fd.C70_mode_partial`
* `Verif.Attach.Fd.C70_round_trip`
* `Verif.Attach.Load.C71_request`
* `Verif.Attach.Load.C71_tracing`
* `Verif.Attach.Load.C71_extension_partial`
* `Verif.Attach.Load.C71_attach_to`
* `Verif.Attach.Load.C71_license`
* `Verif.Attach.Load.C71_version`
* `Verif.Pipe.C72_code_partial`
* `Verif.Loader.C74_code_partial`
* `Verif.Loader.C74_succeeds`
* `Verif.Handles.C75_accepted`
* `Verif.Handles.C75_any_kind`
* `Verif.Handles.C75_buffers_partial`
* `Verif.Handles.C75_operations`
* `Verif.Handles.C75_created`
* `Verif.Handles.C75_sock_hash_get_violated`
* `Verif.Probe.C76_attached_partial`
* `Verif.Probe.C76_failed_partial`
* `Verif.Probe.C76_not_loaded`
* `Verif.Probe.C76_cookie`
* `Verif.Probe.C76_names`
* `Verif.Probe.C76_unique`
* `Verif.Probe.C76_definition`
* `Verif.Probe.C76_detached`
* `Verif.Probe.C76_undone`
* `Verif.Probe.C76_removed`
* `Verif.Probe.C76_history_partial`
* `Verif.Probe.C76_ret_offset_violated`
* `Verif.Probe.C76_pid_violated`
* `Verif.Probe.C76_address_violated`
* `Verif.Probe.C76_nul_violated`
* `Verif.Probe.C76_nul_kprobe_violated`
* `Verif.Probe.C76_name_violated`
* `Verif.Probe.C76_inheritable_violated`
* `Verif.Probe.C76_definition_left_violated`
* `Verif.Run.C77_run_partial`
* `Verif.Run.C77_contained_partial`
* `Verif.Run.C77_short`
* `Verif.Run.C77_raw_trace_point`
* `Verif.Run.C77_empty_violated`
* `Verif.Attach.Query.C78_listed`
* `Verif.Attach.Query.C78_listed_still`
* `Verif.Attach.Query.C78_lirc`
* `Verif.Attach.Query.C78_device_partial`
* `Verif.Attach.Query.C78_answers`
* `Verif.Attach.Query.C78_tcx`
* `Verif.Attach.Query.C78_tcx_order`
* `Verif.Ebpf.Args.C79_argument_partial`
* `Verif.Ebpf.Args.C79_result_partial`
* `Verif.Ebpf.Args.C79_btf_argument_partial`
* `Verif.Ebpf.Args.C79_ids`
* `Verif.Ebpf.Args.C79_arm_violated`
* `Verif.Ebpf.Args.C79_wide_violated`
* `Verif.Ebpf.Mem.C80_memmove`
* `Verif.Ebpf.Mem.C80_memcpy`
* `Verif.Ebpf.Mem.C80_memset`
* `Verif.Ebpf.Read.C81_bounds`
* `Verif.Ebpf.Read.C81_string`
* `Verif.Ebpf.Read.C81_string_long`
* `Verif.Ebpf.Read.C81_string_fault`
* `Verif.Ebpf.Decl.C82_legacy`
* `Verif.Ebpf.Decl.C82_btf_partial`
* `Verif.Ebpf.Decl.C82_pinned`
* `Verif.Ebpf.Decl.C82_opened`
* `Verif.Ebpf.Decl.C82_created`
* `Verif.Ebpf.Decl.C82_matrix_violated`
* `Verif.Ebpf.Ring.C83_delivered_partial`
* `Verif.Ebpf.Ring.C83_drained_partial`
* `Verif.Ebpf.Ring.C83_woken_partial`
* `Verif.Ebpf.Ring.C83_entry`
* `Verif.Ebpf.Ring.C83_output_completes`
* `Verif.Ebpf.Ring.C83_results`
* `Verif.Ebpf.Perf.C84_written`
* `Verif.Ebpf.Perf.C84_read`
* `Verif.Info.C85_program_info`
* `Verif.Info.C85_map_info`
* `Verif.Info.C85_from_pin_partial`
* `Verif.Info.C85_loaded_programs`
* `Verif.Info.C85_loaded_maps`
* `Verif.Info.C85_history_partial`
* `Verif.Info.C85_loaded_at`
* `Verif.Info.C85_memory_locked`
* `Verif.Features.C86_maps`
* `Verif.Features.C86_maps_sound`
* `Verif.Features.C86_programs_partial`
* `Verif.Features.C86_programs_sound_partial`
* `Verif.Features.C86_helpers`
* `Verif.Features.C86_helpers_sound`
* `Verif.Features.C86_features`
* `Verif.Features.C86_features_sound`
* `Verif.Features.C86_remembered`
* `Verif.Features.C86_btf_kinds`
* `Verif.Features.C86_undescribed_violated`
* `Verif.Shared.C87_hash`
* `Verif.Shared.C87_array`
* `Verif.Shared.C87_percpu`
* `Verif.Shared.C87_queue`
* `Verif.Shared.C87_conserved`
* `Verif.Shared.C87_trie`
* `Verif.Shared.C87_devices_partial`
* `Verif.Shared.C87_devices_violated`
* `Verif.Nested.C88_one_table`
* `Verif.Nested.C88_no_leak`
* `Verif.Pins.C89_pins_partial`
* `Verif.Pins.C89_foreign_violated`
* `Verif.Pins.C89_again_violated`
* `Verif.Pins.C89_info_violated`
* `Verif.Pins.C89_kind_violated`
* `Verif.Externs.C90_collected_partial`
* `Verif.Externs.C90_resolved_partial`
* `Verif.Externs.C90_refused`
* `Verif.Externs.C90_accepted`
* `Verif.Macros.C91_accepted_partial`
* `Verif.Macros.C91_order`
* `Verif.Macros.C91_program`
* `Verif.Macros.C91_context`
* `Verif.Macros.C91_map`
* `Verif.Macros.C91_map_section`
* `Verif.Macros.C91_ignored_violated`
* `Verif.SockFilter.C92_histories`
* `Verif.SockFilter.C92_stays`
* `Verif.SockFilter.C92_group`
* `Verif.SockFilter.C92_ungroup`
* `Verif.SockFilter.C92_apart`
* `Verif.LogRun.C93_logged_partial`
* `Verif.LogRun.C93_flushed_partial`
* `Verif.LogRun.C93_woken_partial`
* `Verif.LogRun.C93_placed`
* `Verif.LogRun.C93_carried_out`
* `Verif.LogRun.C93_one_ends_all_violated`
* `Verif.Tool.C94_command_partial`
* `Verif.Tool.C94_result`
* `Verif.Tool.C94_joined_violated`
* `Verif.Tool.C94_clang_violated`
* `Verif.Tool.C94_relative_violated`
* `Verif.Jump.C95_histories`
* `Verif.Jump.C95_stays_partial`
* `Verif.Jump.C95_jump`
* `Verif.Jump.C95_ends`
* `Verif.Jump.C95_indices`
* `Verif.Helpers.C96_printed`
* `Verif.Helpers.C96_too_many`
* `Verif.Helpers.C96_write`
* `Verif.Helpers.C96_compare_partial`
* `Verif.Helpers.C96_compare_terminated`
* `Verif.Socks.C97_histories`
* `Verif.Socks.C97_set`
* `Verif.Socks.C97_clear`
* `Verif.Socks.C97_stays`
* `Verif.Socks.C97_open`
* `Verif.Socks.C97_failed`
* `Verif.Socks.C97_select`
* `Verif.Mapped.C98_no_fault`
* `Verif.Mapped.C98_given_back`
* `Verif.Mapped.C98_mapped`
* `Verif.Mapped.C98_nothing_else`
* `Verif.Mapped.C98_apart`
* `Verif.Mapped.C98_failed`
* `Verif.Mapped.C98_item_partial`
* `Verif.Mapped.C98_ring`
* `Verif.Mapped.C98_pages_partial`
* `Verif.Mapped.C98_page_count`
* `Verif.Mapped.C98_reads`
* `Verif.Mapped.C98_opens`
* `Verif.Mapped.C98_reused_violated`
* `Verif.Mapped.C98_pages_violated`
* `Verif.Ctx.C99_flags_error`
* `Verif.Ctx.C99_rewrites`
* `Verif.Ctx.C99_kept`
* `Verif.Ctx.C99_udp`
* `Verif.Ctx.C99_translate`

## propext Quot.sound

* `Verif.RingBuf.C01_size_2_31_violated`
* `Verif.Linker.C06_two_text_sections_violated`
* `Verif.Linker.C09_records_of_function`
* `Verif.Linker.C09_func_records_of_function`
* `Verif.Local.C100_pointer_violated`
* `Verif.Redirect.C101_program_violated`
* `Verif.Redirect.C101_zero_violated`
* `Verif.Redirect.C101_socket_violated`
* `Verif.Redirect.C101_adopt_violated`
* `Verif.Redirect.C101_old_violated`
* `Verif.Conv.C102_into_fds`
* `Verif.Conv.C102_left_violated`
* `Verif.Conv.C102_refused_violated`
* `Verif.Conv.C102_many_violated`
* `Verif.Conv.C102_other_kind_violated`
* `Verif.Conv.C102_failure_violated`
* `Verif.Conv.C102_unpin_violated`
* `Verif.Nested.Race.C103_gone_violated`
* `Verif.RingBuf.Many.C104_garbage_violated`
* `Verif.RingBuf.Many.C104_stuck_violated`
* `Verif.Build.C106_streams`
* `Verif.Build.C106_not_utf8_violated`
* `Verif.Build.C106_left_behind_violated`
* `Verif.Stacks.C107_stackid`
* `Verif.Stacks.C107_programs_violated`
* `Verif.Stacks.C107_reader_violated`
* `Verif.Hygiene.C108_disabled`
* `Verif.Hygiene.C108_level_and_context`
* `Verif.Hygiene.C108_leaving_violated`
* `Verif.Hygiene.C108_type_violated`
* `Verif.Hygiene.C108_name_violated`
* `Verif.Hygiene.C108_surplus_violated`
* `Verif.Hygiene.C108_level_violated`
* `Verif.Hygiene.C108_long_violated`
* `Verif.Listing.C109_type`
* `Verif.Listing.C109_moment_violated`
* `Verif.Listing.C109_effect_violated`
* `Verif.Listing.C109_delay_violated`
* `Verif.Reloc.C11_poison_number`
* `Verif.Exit.C110_pinned`
* `Verif.Exit.C110_restart`
* `Verif.Exit.C110_dropped_violated`
* `Verif.Exit.C110_cgroup_violated`
* `Verif.Exit.C110_xdp_violated`
* `Verif.Exit.C110_entries_violated`
* `Verif.Stats.C111_errors`
* `Verif.TcLink.C113_restored`
* `Verif.TcLink.C113_detached`
* `Verif.TcLink.C113_replaced_partial`
* `Verif.TcLink.C113_not_replaced`
* `Verif.TcLink.C113_names`
* `Verif.TcLink.C113_handle_violated`
* `Verif.TcLink.C113_renamed_violated`
* `Verif.TcLink.C113_reused_violated`
* `Verif.TcLink.C113_again_violated`
* `Verif.TcLink.C113_twice_violated`
* `Verif.Modules.C114_written`
* `Verif.Modules.C114_complete`
* `Verif.Modules.C114_loaded`
* `Verif.Modules.C114_comment`
* `Verif.Modules.C114_name_violated`
* `Verif.Modules.C114_empty_violated`
* `Verif.Modules.C114_outside_violated`
* `Verif.Modules.C114_short_violated`
* `Verif.Modules.C114_longer_violated`
* `Verif.Decls.C115_aligned_partial`
* `Verif.Verdict.C116_args_partial`
* `Verif.Fetch.C118_whole`
* `Verif.Fetch.C118_current_partial`
* `Verif.Fetch.C118_calm_partial`
* `Verif.Fetch.C118_kept`
* `Verif.Fetch.C118_offline`
* `Verif.Fetch.C118_back_violated`
* `Verif.Cpio.C119_round_trip_partial`
* `Verif.Cpio.C119_written`
* `Verif.Cpio.C119_parents`
* `Verif.Cpio.C119_modules`
* `Verif.Cpio.C119_programs_partial`
* `Verif.Cpio.C119_init`
* `Verif.Cpio.C119_trailer_violated`
* `Verif.Cpio.C119_twice_violated`
* `Verif.Btf.C13_parse_no_panic`
* `Verif.Btf.C13_constructors`
* `Verif.Btf.C13_long_list_violated`
* `Verif.Btf.C14_sized_empty_section_violated`
* `Verif.Btf.C14_section_struct_size_violated`
* `Verif.Btf.C15_resolve`
* `Verif.Btf.C16_size_partial`
* `Verif.Btf.C16_outer_dimension_ignored`
* `Verif.Btf.C17_string`
* `Verif.Btf.C17_total_partial`
* `Verif.Btf.C17_added_string`
* `Verif.Core.C18_signed_partial`
* `Verif.Core.C19_truncated_violated`
* `Verif.Core.C20_candidates`
* `Verif.Core.C20_flexible_violated`
* `Verif.Core.C20_local_index_violated`
* `Verif.Core.C20_matrix_violated`
* `Verif.Obj.C25_unsupported`
* `Verif.Obj.C25_supported`
* `Verif.Obj.C25_probed_once`
* `Verif.Util.C27_code_fits`
* `Verif.Maps.C29_layout`
* `Verif.Maps.C29_read`
* `Verif.Maps.C29_round_trip`
* `Verif.Maps.C29_insert_get`
* `Verif.Maps.C30_keys`
* `Verif.Maps.C30_item_was_read`
* `Verif.Maps.C30_value_error_continues`
* `Verif.Maps.C31_fits`
* `Verif.Maps.C32_in_bounds`
* `Verif.Maps.C32_iter`
* `Verif.Maps.C33_fill_then_freeze`
* `Verif.Links.C34_takes_effect_partial`
* `Verif.Links.C35_state`
* `Verif.Links.C35_load`
* `Verif.Links.C35_unload`
* `Verif.Links.C35_unload_succeeds`
* `Verif.Retry.C36_first_success`
* `Verif.Util.C38_handle_roundtrip`
* `Verif.Util.C38_handle_roundtrip'`
* `Verif.Util.C38_make_halves`
* `Verif.Util.C38_priority_roundtrip`
* `Verif.Util.C38_parent`
* `Verif.Netlink.C39_tc_other_requests`
* `Verif.Netlink.C40_recv_no_panic`
* `Verif.Netlink.C40_recv_slices`
* `Verif.Log.C45_accepted`
* `Verif.Log.C45_only_unknown_partial`
* `Verif.UProbe.C46_mapped_partial`
* `Verif.UProbe.C46_virtual_address`
* `Verif.Ksyms.C50_resolved_to_listed`
* `Verif.Ksyms.C50_errors`
* `Verif.Ksyms.C50_succeeds`
* `Verif.Util.C52_symbol_table`
* `Verif.Obj.C55_no_panic_partial`
* `Verif.Obj.C55_overlong_symbol_violated`
* `Verif.Maps.C56_queue_order`
* `Verif.Maps.C57_one_map`
* `Verif.Maps.C57_maps_created`
* `Verif.Maps.C57_succeeds`
* `Verif.Maps.C58_created_partial`
* `Verif.Netlink.C59_other_filter_violated`
* `Verif.UProbe.C62_refused`
* `Verif.Core.C64_same_type`
* `Verif.Core.C64_kinds`
* `Verif.ObjMaps.C65_matrix_violated`
* `Verif.ObjMaps.C66_maps_panic_violated`
* `Verif.Ext.C67_given_partial`
* `Verif.Ext.C67_record_size_violated`
* `Verif.Attach.Xdp.C68_attached`
* `Verif.Attach.Xdp.C68_attach_failed`
* `Verif.Attach.Xdp.C68_detached_netlink`
* `Verif.Attach.Xdp.C68_interface_partial`
* `Verif.Attach.Xdp.C68_replace_netlink_violated`
* `Verif.Attach.Xdp.C68_old_kernel`
* `Verif.Attach.Xdp.C68_error`
* `Verif.Attach.Xdp.C68_replaced_netlink`
* `Verif.Attach.Tcx.C69_order_partial`
* `Verif.Attach.Tcx.C69_order_failed`
* `Verif.Attach.Tcx.C69_detached`
* `Verif.Attach.Tcx.C69_replaced`
* `Verif.Attach.Tcx.C69_stale_order_violated`
* `Verif.Attach.Tcx.C69_fd_zero_violated`
* `Verif.Attach.Tcx.Filter.C69_filter_attached`
* `Verif.Attach.Tcx.Filter.C69_filter_detached`
* `Verif.Attach.Tcx.Filter.C69_filter_replaced`
* `Verif.Attach.Tcx.Filter.C69_filter_forgotten_violated`
* `Verif.Attach.Fd.C70_attached`
* `Verif.Attach.Fd.C70_failed`
* `Verif.Attach.Fd.C70_neighbours`
* `Verif.Attach.Fd.C70_mode_violated`
* `Verif.Attach.Load.C71_history`
* `Verif.Attach.Load.C71_btf_read`
* `Verif.Pipe.C72_extern_without_btf_violated`
* `Verif.Loader.C73_refused`
* `Verif.Loader.C73_target`
* `Verif.Loader.C73_history`
* `Verif.Loader.C74_programs`
* `Verif.Loader.C74_maps`
* `Verif.Handles.C75_frames`
* `Verif.Handles.C75_mislabelled_violated`
* `Verif.Handles.C75_reused_pin_violated`
* `Verif.Run.C77_fails`
* `Verif.Run.C77_live_frames`
* `Verif.Run.C77_size_violated`
* `Verif.Attach.Query.C78_tcx_unchanged`
* `Verif.Ebpf.Args.C79_exit_result_partial`
* `Verif.Ebpf.Args.C79_mips_violated`
* `Verif.Ebpf.Read.C81_packet_bytes`
* `Verif.Ebpf.Read.C81_packet_load_partial`
* `Verif.Ebpf.Read.C81_load_offset_violated`
* `Verif.Ebpf.Perf.C84_flags`
* `Verif.Ebpf.Perf.C84_other_cpu_violated`
* `Verif.Info.C85_unknown_map_type_violated`
* `Verif.Info.C85_failed_probe_violated`
* `Verif.Features.C86_limit`
* `Verif.Features.C86_limit_untouched`
* `Verif.Shared.C87_told`
* `Verif.Shared.C87_bloom`
* `Verif.Shared.C87_sockets`
* `Verif.Pins.C89_stays`
* `Verif.Externs.C90_typedef_violated`
* `Verif.Helpers.C96_command`
* `Verif.Helpers.C96_read`
* `Verif.Helpers.C96_formats_violated`
* `Verif.Helpers.C96_missing_violated`
* `Verif.Socks.C97_redirect`
* `Verif.Socks.C97_lookup`
* `Verif.Ctx.C99_skb`
* `Verif.Ctx.C99_skb_set`
* `Verif.Ctx.C99_reuseport`
* `Verif.Ctx.C99_ops`
* `Verif.Ctx.C99_reply_partial`
* `Verif.Ctx.C99_flags_partial`
* `Verif.Ctx.C99_push_pop`
* `Verif.Ctx.C99_succeeds`
* `Verif.Ctx.C99_reply_violated`
* `Verif.Ctx.C99_port_violated`
